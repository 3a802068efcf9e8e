import Verif.ConfigProps

/-!
# C109: enhanced certificate authentication, from the configuration calls to the CA
-/
namespace Verif.Config
open Verif.Server (Cfg Tls Net Csr Req Out Ev Cred CertVerified AuthOut Authorised handleEca getMfg
  getMfgLoop csrCheck localLoop buildEcaHeader enrollAuth simpleEnroll serverKeygen cap)
open Verif.Setter (Srv Slot SrvOp Lib run runFrom step NoNul Terminated cstr)

/-! ## What the calls say -/

/-- Enhanced certificate authentication as it was switched on: the subject field of local
certificates, the password, whether CSRs are checked, and the manufacturers with the subject
field and the trusted certificates of each. -/
structure Eca where
  nid : Int
  pwd : List Nat
  check : Bool
  mfgs : List (Int × Nat)

/-- A manufacturer is added if the mode is on, there is room for one more and the certificates
can be read. -/
def addNext (lib : Lib) (e : Option Eca) (nid : Int) (certs : List Nat) : Option Eca :=
  match e with
  | none => none
  | some x =>
    if certs ≠ [] ∧ x.mfgs.length < 4 then
      match lib.loadStore certs with
      | some st => some { x with mfgs := x.mfgs ++ [(nid, st)] }
      | none => some x
    else some x

/-- The mode is switched on with sensible values, unless it is on already. -/
def enableNext (e : Option Eca) (nid : Int) (pwd : List Nat) (check : Int) : Option Eca :=
  match e with
  | some x => some x
  | none => if pwd.length ≤ 255 ∧ (check = 0 ∨ check = 1) then some ⟨nid, pwd, check == 1, []⟩ else none

/-- What a call does to the mode. -/
def ecaNext (lib : Lib) (e : Option Eca) : SrvOp → Option Eca
  | .enableEca nid pwd check => enableNext e nid (pwd.getD [99, 105, 115, 99, 111]) check
  | .disableEca => none
  | .addMfg (some _) nid (some certs) _ _ _ => addNext lib e nid certs
  | _ => e

/-- The mode after the calls. -/
def ecaSaid (lib : Lib) (ops : List SrvOp) : Option Eca := ops.foldl (ecaNext lib) none

/-- Calls with C strings, for which there is memory. -/
def Plain : SrvOp → Prop
  | .enableEca _ pwd _ => ∀ p, pwd = some p → NoNul p
  | .addMfg _ _ _ a b d => a = true ∧ b = true ∧ d = true
  | _ => True

/-- The manufacturer in a slot. -/
def pairOf (s : Slot) : Option (Int × Nat) := s.store.map fun c => (s.nid, c)

/-- The context says what the calls said. -/
structure Holds (s : Srv) (e : Eca) : Prop where
  on : s.eca = true
  nid : s.ecaNid = e.nid
  pwd : cstr s.ecaPwd = e.pwd
  pwdLen : e.pwd.length ≤ 255
  check : decide (s.ecaCheck = 1) = e.check
  mfgs : (s.mfgs.getD []).filterMap pairOf = e.mfgs

/-- The invariant of the calls. -/
structure EcaRel (s : Srv) (e : Option Eca) : Prop where
  term : Terminated s.ecaPwd
  list : Setter.ListOk s
  off : e = none → s.eca = false ∧ s.mfgs = none
  on : ∀ x, e = some x → Holds s x

theorem pairs_none (b : List Slot) (h : ∀ s ∈ b, s.store = none) : b.filterMap pairOf = [] := by
  rw [List.filterMap_eq_nil_iff]
  intro s hs
  simp [pairOf, h s hs]

theorem pairs_length (a : List Slot) (h : ∀ s ∈ a, s.store ≠ none) :
    (a.filterMap pairOf).length = a.length := by
  induction a with
  | nil => rfl
  | cons s a ih =>
    cases hs : s.store with
    | none => exact absurd hs (h s (by simp))
    | some c =>
      rw [List.filterMap_cons_some (b := (s.nid, c)) (by simp [pairOf, hs])]
      simp [ih (fun t ht => h t (by simp [ht]))]

/-- Loading a manufacturer into a list. -/
theorem load_pairs (lib : Lib) (l : List Slot) (n : List Nat) (i : Int) (c : List Nat)
    (hl : l.length = 4 ∧ Setter.Prefixed l) (x : Eca) (hx : l.filterMap pairOf = x.mfgs) (hc : c ≠ []) :
    ∃ y, addNext lib (some x) i c = some y ∧
      (Setter.loadMfg lib l n i c true true).2.filterMap pairOf = y.mfgs ∧
      y.nid = x.nid ∧ y.pwd = x.pwd ∧ y.check = x.check := by
  obtain ⟨h4, a, b, rfl, ha, hb⟩ := hl
  obtain ⟨s1, s2⟩ := Setter.loadMfg_spec lib a b n i c true true ha hb
  have hlen : x.mfgs.length = a.length := by
    rw [← hx, List.filterMap_append, pairs_none b hb, List.append_nil, pairs_length a ha]
  cases b with
  | nil =>
    have h44 : a.length = 4 := by simpa using h4
    refine ⟨x, ?_, by rw [s1 rfl]; exact hx, rfl, rfl, rfl⟩
    unfold addNext
    simp [hlen, h44]
  | cons s0 b' =>
    have hroom : x.mfgs.length < 4 := by
      rw [hlen]
      simp at h4
      omega
    have hb' : ∀ s ∈ b', s.store = none := fun s hs => hb s (by simp [hs])
    have hap : a.filterMap pairOf = x.mfgs := by
      rw [← hx, List.filterMap_append, pairs_none _ hb, List.append_nil]
    obtain ⟨nm, _, ⟨st, h5, _, _, h6⟩ | ⟨h5, h6⟩⟩ := s2 s0 b' rfl
    · refine ⟨{ x with mfgs := x.mfgs ++ [(i, st)] }, ?_, ?_, rfl, rfl, rfl⟩
      · unfold addNext; simp [hc, hroom, h5]
      · rw [h6, List.filterMap_append, hap,
          List.filterMap_cons_some (b := (i, st)) (by simp [pairOf]), pairs_none b' hb']
    · refine ⟨x, ?_, ?_, rfl, rfl, rfl⟩
      · unfold addNext
        simp only [hc, hroom, ne_eq, not_false_eq_true, and_self, if_true]
        cases hs : lib.loadStore c with
        | none => rfl
        | some st =>
          exfalso
          apply h5
          have hn := Setter.nextFree_split a b' s0 ha (hb s0 (by simp))
          simp [Setter.loadMfg, hn, hs]
      · rw [h6, List.filterMap_append, hap, List.filterMap_cons_none (by simp [pairOf]),
          pairs_none b' hb', List.append_nil]

theorem rel_step (lib : Lib) (s : Srv) (e : Option Eca) (op : SrvOp) (hp : Plain op)
    (h : EcaRel s e) : EcaRel (step lib s op).2 (ecaNext lib e op) := by
  have hlist := Setter.listOk_step lib s op h.list
  cases op with
  | addMfg n i c a b d =>
    obtain ⟨rfl, rfl, rfl⟩ := hp
    obtain ⟨m, hm⟩ := addMfg_fields lib s n c i true true true
    cases n with
    | none =>
      have : (step lib s (.addMfg none i c true true true)).2 = s := by simp [step, Setter.addMfg]
      rw [this]; cases c <;> exact h
    | some n =>
      cases c with
      | none =>
        have : (step lib s (.addMfg (some n) i none true true true)).2 = s := by
          simp [step, Setter.addMfg]
        rw [this]; exact h
      | some c =>
        show EcaRel _ (addNext lib e i c)
        by_cases hc : c = []
        · have : (step lib s (.addMfg (some n) i (some c) true true true)).2 = s := by
            simp [step, Setter.addMfg, hc]
          rw [this]
          have : addNext lib e i c = e := by
            cases e <;> simp [addNext, hc]
          rw [this]; exact h
        · have hc0 : c.length ≠ 0 := by simpa using hc
          cases e with
          | none =>
            have : (step lib s (.addMfg (some n) i (some c) true true true)).2 = s := by
              simp [step, Setter.addMfg, (h.off rfl).1, hc]
            rw [this]; exact h
          | some x =>
            have hx := h.on x rfl
            have key : ∃ l, l.length = 4 ∧ Setter.Prefixed l ∧ l.filterMap pairOf = x.mfgs ∧
                (step lib s (.addMfg (some n) i (some c) true true true)).2 =
                  { s with mfgs := some (Setter.loadMfg lib l n i c true true).2 } := by
              cases hl : s.mfgs with
              | none =>
                refine ⟨Setter.emptyList, Setter.emptyList_ok.1, Setter.emptyList_ok.2, ?_, ?_⟩
                · have := hx.mfgs
                  rw [hl] at this
                  rw [← this]
                  decide
                · simp [step, Setter.addMfg, hc, hx.on, hl]
              | some l =>
                have := h.list l hl
                refine ⟨l, this.1, this.2, ?_, ?_⟩
                · have := hx.mfgs
                  rw [hl] at this
                  exact this
                · simp [step, Setter.addMfg, hc, hx.on, hl]
            obtain ⟨l, h4, hpre, hxl, hstep⟩ := key
            obtain ⟨y, hy, hz, y1, y2, y3⟩ := load_pairs lib l n i c ⟨h4, hpre⟩ x hxl hc
            rw [hstep] at hlist ⊢
            refine ⟨h.term, hlist, fun hn => (by rw [hy] at hn; cases hn), ?_⟩
            intro w hw
            rw [hy] at hw
            cases hw
            exact ⟨hx.on, by rw [y1]; exact hx.nid, by rw [y2]; exact hx.pwd,
              by rw [y2]; exact hx.pwdLen, by rw [y3]; exact hx.check, hz⟩
  | enableEca nid pwd check =>
    have hz : NoNul (pwd.getD [99, 105, 115, 99, 111]) := by
      cases pwd with
      | none => unfold NoNul; decide
      | some p => exact hp p rfl
    show EcaRel _ (enableNext e nid (pwd.getD [99, 105, 115, 99, 111]) check)
    cases e with
    | some x =>
      have : (step lib s (.enableEca nid pwd check)).2 = s := by
        simp [step, Setter.enableEca, (h.on x rfl).on]
      rw [this]; exact h
    | none =>
      obtain ⟨h1, h2⟩ := h.off rfl
      unfold enableNext
      simp only [step, Setter.enableEca, h1, Bool.false_eq_true, if_false]
      have hd : Setter.defaultPwd = [99, 105, 115, 99, 111] := rfl
      rw [hd]
      by_cases hlen : (pwd.getD [99, 105, 115, 99, 111]).length ≤ 255
      · have hl2 : ¬ (pwd.getD [99, 105, 115, 99, 111]).length > 255 := by omega
        have ht := Setter.strcpyS_terminated s.ecaPwd (pwd.getD [99, 105, 115, 99, 111]) 256 h.term (.inr ⟨rfl, hlen⟩)
        rw [if_neg hl2]
        by_cases hc : check = 1 ∨ check = 0
        · rw [if_pos hc, if_pos ⟨hlen, by omega⟩]
          refine ⟨ht, h.list, (fun h => by cases h), ?_⟩
          intro x hx
          cases hx
          refine ⟨rfl, rfl, Setter.strcpyS_cstr s.ecaPwd _ 256 h.term (.inr rfl) hlen hz, hlen, ?_, ?_⟩
          · rcases hc with rfl | rfl <;> rfl
          · show (s.mfgs.getD []).filterMap pairOf = []
            rw [h2]; rfl
        · rw [if_neg hc, if_neg (by omega)]
          exact ⟨ht, h.list, fun _ => ⟨rfl, h2⟩, fun x hx => by cases hx⟩
      · have hl2 : (pwd.getD [99, 105, 115, 99, 111]).length > 255 := by omega
        rw [if_pos hl2, if_neg (by omega)]
        exact ⟨h.term, h.list, fun _ => ⟨rfl, h2⟩, fun x hx => by cases hx⟩
  | disableEca =>
    show EcaRel _ none
    cases e with
    | none =>
      have : (step lib s .disableEca).2 = s := by simp [step, Setter.disableEca, (h.off rfl).1]
      rw [this]; exact h
    | some x =>
      have hx := h.on x rfl
      have : (step lib s .disableEca).2 = { s with mfgs := none, eca := false } := by
        simp [step, Setter.disableEca, hx.on]
      rw [this] at hlist ⊢
      exact ⟨h.term, hlist, fun _ => ⟨rfl, rfl⟩, fun y hy => by cases hy⟩
  | initCsrattrs t a =>
    obtain ⟨p, c, e1⟩ := initCsrattrs_fields lib s t a
    rw [e1]
    exact ⟨h.term, h.list, h.off, fun x hx => ⟨(h.on x hx).1, (h.on x hx).2, (h.on x hx).3,
      (h.on x hx).4, (h.on x hx).5, (h.on x hx).6⟩⟩
  | setAuthMode m =>
    simp only [step, Setter.setAuthMode]; repeat' split
    all_goals exact ⟨h.term, h.list, h.off, fun x hx => ⟨(h.on x hx).1, (h.on x hx).2, (h.on x hx).3,
      (h.on x hx).4, (h.on x hx).5, (h.on x hx).6⟩⟩
  | setRetry v =>
    simp only [step, Setter.setRetry]; repeat' split
    all_goals exact ⟨h.term, h.list, h.off, fun x hx => ⟨(h.on x hx).1, (h.on x hx).2, (h.on x hx).3,
      (h.on x hx).4, (h.on x hx).5, (h.on x hx).6⟩⟩
  | setBrskiRetry v =>
    simp only [step, Setter.setBrskiRetry]; repeat' split
    all_goals exact ⟨h.term, h.list, h.off, fun x hx => ⟨(h.on x hx).1, (h.on x hx).2, (h.on x hx).3,
      (h.on x hx).4, (h.on x hx).5, (h.on x hx).6⟩⟩
  | setReadTimeout v =>
    simp only [step, Setter.setReadTimeout]; repeat' split
    all_goals exact ⟨h.term, h.list, h.off, fun x hx => ⟨(h.on x hx).1, (h.on x hx).2, (h.on x hx).3,
      (h.on x hx).4, (h.on x hx).5, (h.on x hx).6⟩⟩
  | setDtlsTimeout v =>
    simp only [step, Setter.setDtlsTimeout]; repeat' split
    all_goals exact ⟨h.term, h.list, h.off, fun x hx => ⟨(h.on x hx).1, (h.on x hx).2, (h.on x hx).3,
      (h.on x hx).4, (h.on x hx).5, (h.on x hx).6⟩⟩
  | setDtlsMtu v =>
    simp only [step, Setter.setDtlsMtu]; repeat' split
    all_goals exact ⟨h.term, h.list, h.off, fun x hx => ⟨(h.on x hx).1, (h.on x hx).2, (h.on x hx).3,
      (h.on x hx).4, (h.on x hx).5, (h.on x hx).6⟩⟩
  | setSessionMax v a =>
    simp only [step, Setter.setSessionMax, Setter.initReqArray]; repeat' split
    all_goals exact ⟨h.term, h.list, h.off, fun x hx => ⟨(h.on x hx).1, (h.on x hx).2, (h.on x hx).3,
      (h.on x hx).4, (h.on x hx).5, (h.on x hx).6⟩⟩
  | coapStart p ok =>
    simp only [step, Setter.coapStart]; repeat' split
    all_goals exact ⟨h.term, h.list, h.off, fun x hx => ⟨(h.on x hx).1, (h.on x hx).2, (h.on x hx).3,
      (h.on x hx).4, (h.on x hx).5, (h.on x hx).6⟩⟩
  | setRequired v =>
    exact ⟨h.term, h.list, h.off, fun x hx => ⟨(h.on x hx).1, (h.on x hx).2, (h.on x hx).3,
      (h.on x hx).4, (h.on x hx).5, (h.on x hx).6⟩⟩
  | enablePop =>
    exact ⟨h.term, h.list, h.off, fun x hx => ⟨(h.on x hx).1, (h.on x hx).2, (h.on x hx).3,
      (h.on x hx).4, (h.on x hx).5, (h.on x hx).6⟩⟩
  | disablePop =>
    exact ⟨h.term, h.list, h.off, fun x hx => ⟨(h.on x hx).1, (h.on x hx).2, (h.on x hx).3,
      (h.on x hx).4, (h.on x hx).5, (h.on x hx).6⟩⟩
  | enforceCsrattr =>
    exact ⟨h.term, h.list, h.off, fun x hx => ⟨(h.on x hx).1, (h.on x hx).2, (h.on x hx).3,
      (h.on x hx).4, (h.on x hx).5, (h.on x hx).6⟩⟩

theorem rel_run (lib : Lib) (ops : List SrvOp) (hp : ∀ op ∈ ops, Plain op) :
    EcaRel (run lib ops) (ecaSaid lib ops) := by
  have key : ∀ (ops : List SrvOp) (s : Srv) (e : Option Eca), (∀ op ∈ ops, Plain op) → EcaRel s e →
      EcaRel (runFrom lib s ops) (ops.foldl (ecaNext lib) e) := by
    intro ops
    induction ops with
    | nil => intro s e _ h; exact h
    | cons op ops ih =>
      intro s e hp h
      exact ih _ _ (fun x hx => hp x (by simp [hx])) (rel_step lib s e op (hp op (by simp)) h)
  refine key ops _ none hp ⟨Setter.zeros_terminated, ?_, fun _ => ⟨rfl, rfl⟩, fun x hx => by cases hx⟩
  intro l hl
  simp [Srv.init] at hl

/-- C109: after any sequence of calls, enhanced certificate authentication is on exactly if the
calls say so, and with the values they say: those of the call that switched it on, and the
manufacturers accepted since then. -/
theorem C109_calls_decide (lib : Lib) (ops : List SrvOp) (hp : ∀ op ∈ ops, Plain op) :
    ((run lib ops).eca = true ↔ (ecaSaid lib ops).isSome) ∧
    ∀ e, ecaSaid lib ops = some e → Holds (run lib ops) e := by
  have h := rel_run lib ops hp
  refine ⟨?_, h.on⟩
  cases he : ecaSaid lib ops with
  | none => simp [(h.off he).1]
  | some e => simp [(h.on e he).on]

/-! ## What they decide about a request -/

/-- The manufacturer of the client's device: the first one registered for whose trusted
certificates OpenSSL does not say that the client's certificate fails. -/
def maker (a : App) (e : Eca) : Option (Int × Nat) := e.mfgs.find? fun m => a.verify m.2 ≠ 0

/-- The subject field by which the client is known to the application. -/
def idField (a : App) (e : Eca) : Nat := (((maker a e).map (·.1)).getD e.nid).toNat

/-- What the application is asked: the client's field (its first 256 characters) and the
configured password. -/
def shown (e : Eca) (f : List Nat) : Cred := ⟨.basic, f.take 256, e.pwd, []⟩

theorem find_pairs (a : App) (l : List Slot) :
    match (l.map (mfgOf a)).find? (fun m => m.active && decide (m.verify ≠ 0)) with
    | some m => ∃ r, (l.filterMap pairOf).find? (fun m => a.verify m.2 ≠ 0) = some r ∧ m.nid = r.1.toNat
    | none => (l.filterMap pairOf).find? (fun m => a.verify m.2 ≠ 0) = none := by
  induction l with
  | nil => rfl
  | cons s l ih =>
    cases hs : s.store with
    | none =>
      simp only [List.map_cons, mfgOf, hs, Option.isSome_none, Bool.false_and, List.find?_cons_of_neg,
        Bool.false_eq_true, not_false_eq_true]
      rw [List.filterMap_cons_none (by simp [pairOf, hs])]
      exact ih
    | some c =>
      rw [List.filterMap_cons_some (b := (s.nid, c)) (by simp [pairOf, hs])]
      by_cases hv : a.verify c = 0
      · rw [List.find?_cons_of_neg (by simp [hv])]
        simp only [List.map_cons, mfgOf, hs, Option.isSome_some, Option.map_some, Option.getD_some]
        rw [List.find?_cons_of_neg (by simp [hv])]
        exact ih
      · rw [List.find?_cons_of_pos (by simp [hv])]
        simp only [List.map_cons, mfgOf, hs, Option.isSome_some, Option.map_some, Option.getD_some]
        rw [List.find?_cons_of_pos (by simp [hv])]
        exact ⟨_, rfl, rfl⟩

theorem loop_find (ms : List Server.Mfg) (h : ∀ m ∈ ms, m.active = true → m.initOk = true) (i : Nat)
    (rv : EstErr) :
    ((getMfgLoop i rv ms).1 = .none ∨ (getMfgLoop i rv ms).1 = rv) ∧
    match (getMfgLoop i rv ms).2 with
    | some j => ∃ k m, j = i + k ∧ ms[k]? = some m ∧
        ms.find? (fun m => m.active && decide (m.verify ≠ 0)) = some m
    | none => ms.find? (fun m => m.active && decide (m.verify ≠ 0)) = none := by
  induction ms generalizing i rv with
  | nil => exact ⟨.inr rfl, rfl⟩
  | cons m ms ih =>
    have hm := h m (by simp)
    have ht : ∀ m ∈ ms, m.active = true → m.initOk = true := fun x hx => h x (by simp [hx])
    unfold getMfgLoop
    cases ha : m.active with
    | false =>
      simp only [Bool.false_eq_true, if_false]
      rw [List.find?_cons_of_neg (by simp [ha])]
      obtain ⟨h1, h2⟩ := ih ht (i + 1) rv
      refine ⟨h1, ?_⟩
      cases hg : (getMfgLoop (i + 1) rv ms).2 with
      | none => rw [hg] at h2; exact h2
      | some j =>
        rw [hg] at h2
        obtain ⟨k, x, h3, h4, h5⟩ := h2
        exact ⟨k + 1, x, by omega, by simpa using h4, h5⟩
    | true =>
      rw [hm ha]
      simp only [if_true, Bool.not_true, Bool.false_eq_true, if_false]
      by_cases hv : m.verify = 0
      · rw [if_pos hv, List.find?_cons_of_neg (by simp [hv])]
        obtain ⟨h1, h2⟩ := ih ht (i + 1) .none
        refine ⟨by rcases h1 with h1 | h1 <;> exact .inl h1, ?_⟩
        cases hg : (getMfgLoop (i + 1) .none ms).2 with
        | none => rw [hg] at h2; exact h2
        | some j =>
          rw [hg] at h2
          obtain ⟨k, x, h3, h4, h5⟩ := h2
          exact ⟨k + 1, x, by omega, by simpa using h4, h5⟩
      · rw [if_neg hv, List.find?_cons_of_pos (by simp [ha, hv])]
        exact ⟨.inl rfl, 0, m, by omega, rfl, rfl⟩

/-- The search for the manufacturer, for a configured server. -/
theorem getMfg_maker (lib : Lib) (ops : List SrvOp) (a : App) (e : Eca) (hh : Holds (run lib ops) e)
    (hi : ∀ c, a.initOk c = true) :
    ((getMfg (cfgOf (run lib ops) a).mfgs).1 = .none ∨
      (getMfg (cfgOf (run lib ops) a).mfgs).1 = .validation) ∧
    match (getMfg (cfgOf (run lib ops) a).mfgs).2 with
    | some i => ∃ ms m r, (cfgOf (run lib ops) a).mfgs = some ms ∧ ms[i]? = some m ∧
        maker a e = some r ∧ m.nid = r.1.toNat
    | none => maker a e = none := by
  cases hl : (run lib ops).mfgs with
  | none =>
    have h0 : (cfgOf (run lib ops) a).mfgs = none := by simp [cfgOf, hl]
    rw [h0]
    have := hh.mfgs
    rw [hl] at this
    refine ⟨.inl rfl, ?_⟩
    show maker a e = none
    unfold maker
    rw [← this]
    rfl
  | some l =>
    have h0 : (cfgOf (run lib ops) a).mfgs = some (l.map (mfgOf a)) := by simp [cfgOf, hl]
    have hm := hh.mfgs
    rw [hl] at hm
    simp only [Option.getD_some] at hm
    have hin : ∀ m ∈ l.map (mfgOf a), m.active = true → m.initOk = true := by
      intro m hm ha
      obtain ⟨s, _, rfl⟩ := List.mem_map.1 hm
      cases hs : s.store with
      | none => simp [mfgOf, hs] at ha
      | some c => simp [mfgOf, hs, hi]
    have hloop := loop_find (l.map (mfgOf a)) hin 0 .validation
    have hf := find_pairs a l
    rw [h0]
    show ((getMfgLoop 0 .validation (l.map (mfgOf a))).1 = _ ∨ _) ∧ match (getMfgLoop 0 .validation (l.map (mfgOf a))).2 with
      | some i => _
      | none => _
    refine ⟨hloop.1, ?_⟩
    have h2 := hloop.2
    cases hg : (getMfgLoop 0 .validation (l.map (mfgOf a))).2 with
    | none =>
      rw [hg] at h2
      rw [h2] at hf
      show maker a e = none
      unfold maker
      rw [← hm]
      exact hf
    | some i =>
      rw [hg] at h2
      obtain ⟨k, m, h3, h4, h5⟩ := h2
      rw [h5] at hf
      obtain ⟨r, h6, h7⟩ := hf
      refine ⟨_, m, r, rfl, ?_, ?_, h7⟩
      · rw [h3, Nat.zero_add]; exact h4
      · unfold maker; rw [← hm]; exact h6

/-- The CSR repeats what the client's certificate says in a field. -/
def Repeats (tls : Tls) (csr : Csr) (n : Nat) : Prop :=
  ∃ f g, tls.peerField n = some f ∧ csr.field n = some g ∧ f.take 256 = g.take 256

/-- The CSR is about the client's device: for a device of a registered manufacturer, it repeats
the field of that manufacturer, which must not be empty; for others, the field of some registered
manufacturer. -/
def SameDevice (a : App) (e : Eca) (tls : Tls) (csr : Csr) : Prop :=
  match maker a e with
  | some m => Repeats tls csr m.1.toNat ∧ tls.peerField m.1.toNat ≠ some []
  | none => ∃ m ∈ e.mfgs, Repeats tls csr m.1.toNat

theorem localLoop_pass (tls : Tls) (csr : Csr) (l : List Slot) (a : App) (ind : Bool)
    (h : localLoop tls.peerField csr.field ind (l.map (mfgOf a)) = false) :
    (∃ m ∈ l.filterMap pairOf, Repeats tls csr m.1.toNat) ∨ (ind = false ∧ l.filterMap pairOf = []) := by
  induction l generalizing ind with
  | nil => exact .inr ⟨h, rfl⟩
  | cons s l ih =>
    cases hs : s.store with
    | none =>
      rw [List.filterMap_cons_none (by simp [pairOf, hs])]
      simp only [List.map_cons, localLoop, mfgOf, hs, Option.isSome_none, Bool.false_eq_true,
        if_false] at h
      exact ih ind h
    | some c =>
      rw [List.filterMap_cons_some (b := (s.nid, c)) (by simp [pairOf, hs])]
      simp only [List.map_cons, localLoop, mfgOf, hs, Option.isSome_some, if_true] at h
      have more : localLoop tls.peerField csr.field true (l.map (mfgOf a)) = false →
          ∃ m ∈ (s.nid, c) :: l.filterMap pairOf, Repeats tls csr m.1.toNat := by
        intro h
        rcases ih true h with ⟨m, h1, h2⟩ | ⟨h1, _⟩
        · exact ⟨m, by simp [h1], h2⟩
        · cases h1
      left
      cases hf : tls.peerField s.nid.toNat with
      | none => rw [hf] at h; exact more h
      | some f =>
        rw [hf] at h
        cases hg : csr.field s.nid.toNat with
        | none => rw [hg] at h; exact more h
        | some g =>
          rw [hg] at h
          simp only at h
          by_cases h1 : (cap f).length ≠ (cap g).length
          · rw [if_pos h1] at h; exact more h
          · rw [if_neg h1] at h
            by_cases h2 : cap f = cap g
            · exact ⟨(s.nid, c), by simp, f, g, hf, hg, h2⟩
            · have h3 : cap f ≠ [] := by
                intro h3
                rw [h3] at h1 h2
                have : (cap g).length = 0 := by simp at h1; simp [h1]
                exact h2 (List.length_eq_zero_iff.1 this).symm
              have h4 : (!(cap f == cap g)) = true := by simp [h2]
              simp only [if_neg h3, h4, if_true] at h
              exact more h

theorem handle_eq (cfg : Cfg) (tls : Tls) (parse : List Nat → Option Csr) (buf : List Nat)
    (check : Bool) (n : Nat)
    (g1 : (getMfg cfg.mfgs).1 = .none ∨ (getMfg cfg.mfgs).1 = .validation)
    (hn : (∃ i ms m, (getMfg cfg.mfgs).2 = some i ∧ cfg.mfgs = some ms ∧ ms[i]? = some m ∧ m.nid = n) ∨
      ((getMfg cfg.mfgs).2 = none ∧ cfg.localNid = n)) :
    handleEca cfg tls parse buf check =
      if !tls.chain then (.ecaErr, ⟨.none, [], [], []⟩, none)
      else if check then
        match parse buf with
        | none => (.csrParseFail, ⟨.none, [], [], []⟩, none)
        | some csr =>
          if csrCheck cfg tls csr (getMfg cfg.mfgs).2 = .good then
            ((buildEcaHeader cfg tls n).1, (buildEcaHeader cfg tls n).2, some csr)
          else (csrCheck cfg tls csr (getMfg cfg.mfgs).2, ⟨.none, [], [], []⟩, some csr)
      else ((buildEcaHeader cfg tls n).1, (buildEcaHeader cfg tls n).2, none) := by
  unfold handleEca
  simp only [if_pos g1]
  rcases hn with ⟨i, ms, m, h1, h2, h3, rfl⟩ | ⟨h1, rfl⟩
  · rw [h2] at h1
    simp only [h1, h2, h3]
    rfl
  · simp only [h1]
    rfl

/-- The outcome of enhanced certificate authentication on a configured server. -/
theorem handle_good (lib : Lib) (ops : List SrvOp) (a : App) (e : Eca) (hh : Holds (run lib ops) e)
    (hi : ∀ c, a.initOk c = true) (tls : Tls) (parse : List Nat → Option Csr) (buf : List Nat) :
    (handleEca (cfgOf (run lib ops) a) tls parse buf (cfgOf (run lib ops) a).ecaCsrCheck).1 ≠ .bad ∧
    ((handleEca (cfgOf (run lib ops) a) tls parse buf (cfgOf (run lib ops) a).ecaCsrCheck).1 = .good →
      tls.chain = true ∧ ∃ f, tls.peerField (idField a e) = some f ∧
        (handleEca (cfgOf (run lib ops) a) tls parse buf (cfgOf (run lib ops) a).ecaCsrCheck).2.1 =
          shown e f ∧
        (e.check = true → ∃ csr, parse buf = some csr ∧
          csrCheck (cfgOf (run lib ops) a) tls csr (getMfg (cfgOf (run lib ops) a).mfgs).2 = .good)) ∧
    (∀ f, tls.chain = true → tls.peerField (idField a e) = some f →
      (e.check = true → ∃ csr, parse buf = some csr ∧
          csrCheck (cfgOf (run lib ops) a) tls csr (getMfg (cfgOf (run lib ops) a).mfgs).2 = .good) →
      (handleEca (cfgOf (run lib ops) a) tls parse buf (cfgOf (run lib ops) a).ecaCsrCheck).1 = .good ∧
      (handleEca (cfgOf (run lib ops) a) tls parse buf (cfgOf (run lib ops) a).ecaCsrCheck).2.1 =
          shown e f) := by
  obtain ⟨g1, g2⟩ := getMfg_maker lib ops a e hh hi
  have hck : (cfgOf (run lib ops) a).ecaCsrCheck = e.check := hh.check
  have hpw : cap (cfgOf (run lib ops) a).ecaPwd = e.pwd := by
    show (cstr (run lib ops).ecaPwd).take 256 = e.pwd
    rw [hh.pwd]
    exact List.take_of_length_le (by have := hh.pwdLen; omega)
  have hnid : (∃ i ms m, (getMfg (cfgOf (run lib ops) a).mfgs).2 = some i ∧
        (cfgOf (run lib ops) a).mfgs = some ms ∧ ms[i]? = some m ∧ m.nid = idField a e) ∨
      ((getMfg (cfgOf (run lib ops) a).mfgs).2 = none ∧
        (cfgOf (run lib ops) a).localNid = idField a e) := by
    cases hg : (getMfg (cfgOf (run lib ops) a).mfgs).2 with
    | none =>
      rw [hg] at g2
      refine .inr ⟨rfl, ?_⟩
      show (run lib ops).ecaNid.toNat = _
      unfold idField
      rw [g2, hh.nid]
      rfl
    | some i =>
      rw [hg] at g2
      obtain ⟨ms, m, r, h1, h2, h3, h4⟩ := g2
      refine .inl ⟨i, ms, m, rfl, h1, h2, ?_⟩
      unfold idField
      rw [h3, h4]
      rfl
  rw [hck, handle_eq _ tls parse buf e.check _ g1 hnid]
  generalize hcc : (getMfg (cfgOf (run lib ops) a).mfgs).2 = idx
  unfold buildEcaHeader
  simp only [hpw]
  cases hch : tls.chain with
  | false => simp
  | true =>
    simp only [Bool.not_true, Bool.false_eq_true, if_false]
    cases hec : e.check with
    | false =>
      simp only [Bool.false_eq_true, if_false, false_implies, and_true]
      cases hf : tls.peerField (idField a e) with
      | none => simp
      | some f => simp [shown, cap]
    | true =>
      simp only [if_true]
      cases hp : parse buf with
      | none => simp
      | some csr =>
        simp only
        by_cases hc : csrCheck (cfgOf (run lib ops) a) tls csr idx = .good
        · simp only [hc, if_true]
          cases hf : tls.peerField (idField a e) with
          | none => simp
          | some f => simp [shown, cap, hc]
        · have hb : csrCheck (cfgOf (run lib ops) a) tls csr idx ≠ .bad := by
            unfold csrCheck
            repeat' split
            all_goals simp
          simp only [if_neg hc]
          refine ⟨hb, fun h => absurd h hc, ?_⟩
          intro f _ _ h
          obtain ⟨c, h1, h2⟩ := h trivial
          cases h1
          exact absurd h2 hc

/-- A client with a verified certificate, on a server that asks the application about it. -/
theorem auth_eca {cfg : Cfg} {tls : Tls} {hdr parse ty buf} {x : AuthOut} {cb : Cred → Bool}
    (hE : cfg.ecaEnabled = true) (hcb : cfg.authCb = some cb) (hp : CertVerified tls)
    (hr : cfg.transport = .http → cfg.requireHttpAuth = true)
    (hb : (handleEca cfg tls parse buf cfg.ecaCsrCheck).1 ≠ .bad)
    (h : enrollAuth cfg tls hdr parse ty buf = some x) :
    (Authorised x.st → (handleEca cfg tls parse buf cfg.ecaCsrCheck).1 = .good ∧
      cb (handleEca cfg tls parse buf cfg.ecaCsrCheck).2.1 = true ∧
      x.evs = [.askApp (handleEca cfg tls parse buf cfg.ecaCsrCheck).2.1]) ∧
    (buf ≠ [] → (handleEca cfg tls parse buf cfg.ecaCsrCheck).1 = .good →
      cb (handleEca cfg tls parse buf cfg.ecaCsrCheck).2.1 = true → Authorised x.st) := by
  have hck : Server.checkTlsCert tls = some .certAuth := by
    rcases hp with hp | hp <;> simp [Server.checkTlsCert, hp]
  unfold enrollAuth at h
  simp only [hck, hE, hcb, ne_eq, not_true_eq_false, false_and, if_false, Bool.true_and,
    beq_self_eq_true, if_true] at h
  generalize handleEca cfg tls parse buf cfg.ecaCsrCheck = r at *
  obtain ⟨res, cred, csr⟩ := r
  simp only at h hb ⊢
  cases ht : cfg.transport with
  | http =>
    rw [ht] at h
    simp only [hr ht, or_true, if_true] at h
    cases res <;> simp only at h <;> try injection h with h
    all_goals (try subst h)
    · cases hc : cb cred <;> simp [Authorised]
    all_goals (try simp [Authorised])
    exact absurd rfl hb
  | coap =>
    rw [ht] at h
    simp only at h
    by_cases hbuf : buf = []
    · rw [if_pos hbuf] at h
      injection h with h
      subst h
      simp [Authorised, hbuf]
    · rw [if_neg hbuf] at h
      cases res <;> simp only at h <;> try injection h with h
      all_goals (try subst h)
      · cases hc : cb cred <;> simp [Authorised]
      all_goals (try simp [Authorised])

/-- The server asks the application about every client with a certificate: HTTP authentication is
required, or CoAP was started. -/
def Asks (lib : Lib) (ops : List SrvOp) : Prop :=
  (∃ op ∈ ops, Starts lib op) ∨ lastSet (saysRequired lib) 1 ops = 1

theorem asks_http {lib : Lib} {ops : List SrvOp} (a : App) (h : Asks lib ops) :
    (cfgOf (run lib ops) a).transport = .http → (cfgOf (run lib ops) a).requireHttpAuth = true := by
  have hl := C104_last_call_decides lib ops
  intro ht
  rcases h with h | h
  · rw [← hl.2.2.2.2.2.1] at h
    simp [cfgOf, h] at ht
  · simp [cfgOf, hl.1, h]

/-- What is known of a request that got through: the application was asked about the client's
field with the configured password and accepted, and the CSR passed the check if it is on. -/
structure Passed (a : App) (e : Eca) (cb : Cred → Bool) (tls : Tls) (parse : List Nat → Option Csr)
    (body : List Nat) (evs : List Ev) : Prop where
  chain : tls.chain = true
  asked : ∃ f, tls.peerField (idField a e) = some f ∧ Ev.askApp (shown e f) ∈ evs ∧
    cb (shown e f) = true
  csr : e.check = true → (maker a e).isSome ∨ e.mfgs ≠ [] →
    ∃ csr, parse body = some csr ∧ SameDevice a e tls csr

theorem check_same (lib : Lib) (ops : List SrvOp) (a : App) (e : Eca) (hh : Holds (run lib ops) e)
    (hi : ∀ c, a.initOk c = true) (tls : Tls) (csr : Csr)
    (hc : csrCheck (cfgOf (run lib ops) a) tls csr (getMfg (cfgOf (run lib ops) a).mfgs).2 = .good)
    (hne : (maker a e).isSome ∨ e.mfgs ≠ []) : SameDevice a e tls csr := by
  have g2 := (getMfg_maker lib ops a e hh hi).2
  unfold SameDevice
  cases hg : (getMfg (cfgOf (run lib ops) a).mfgs).2 with
  | some i =>
    rw [hg] at g2 hc
    obtain ⟨ms, m, r, h1, h2, h3, h4⟩ := g2
    rw [h3]
    show Repeats tls csr r.1.toNat ∧ tls.peerField r.1.toNat ≠ some []
    rw [← h4]
    unfold csrCheck at hc
    simp only [h1, h2] at hc
    cases hf : tls.peerField m.nid with
    | none => simp [hf] at hc
    | some f =>
      cases hgf : csr.field m.nid with
      | none => simp [hf, hgf] at hc
      | some g =>
        simp only [hf, hgf] at hc
        by_cases h5 : (cap f).length ≠ (cap g).length
        · rw [if_pos h5] at hc; cases hc
        · rw [if_neg h5] at hc
          by_cases h6 : cap f = []
          · rw [if_pos h6] at hc; cases hc
          · rw [if_neg h6] at hc
            by_cases h7 : (cap f == cap g) = true
            · refine ⟨⟨f, g, hf, hgf, (beq_iff_eq.1 h7 : cap f = cap g)⟩, ?_⟩
              intro h; injection h with h; subst h; exact h6 rfl
            · rw [if_neg h7] at hc; cases hc
  | none =>
    rw [hg] at g2 hc
    rw [g2] at hne ⊢
    have hne : e.mfgs ≠ [] := by simpa using hne
    cases hl : (run lib ops).mfgs with
    | none =>
      have := hh.mfgs
      rw [hl] at this
      exact absurd this.symm hne
    | some l =>
      have hm := hh.mfgs
      rw [hl] at hm
      simp only [Option.getD_some] at hm
      unfold csrCheck at hc
      have h0 : (cfgOf (run lib ops) a).mfgs = some (l.map (mfgOf a)) := by simp [cfgOf, hl]
      simp only [h0] at hc
      by_cases hloop : localLoop tls.peerField csr.field false (l.map (mfgOf a)) = true
      · rw [if_pos hloop] at hc; cases hc
      · rcases localLoop_pass tls csr l a false (by simpa using hloop) with h | ⟨_, h⟩
        · rw [hm] at h; exact h
        · rw [hm] at h; exact absurd h hne

theorem check_same_maker (lib : Lib) (ops : List SrvOp) (a : App) (e : Eca)
    (hh : Holds (run lib ops) e) (hi : ∀ c, a.initOk c = true) (tls : Tls) (csr : Csr)
    (hm : (maker a e).isSome) (hs : SameDevice a e tls csr) :
    csrCheck (cfgOf (run lib ops) a) tls csr (getMfg (cfgOf (run lib ops) a).mfgs).2 = .good := by
  have g2 := (getMfg_maker lib ops a e hh hi).2
  unfold SameDevice at hs
  cases hg : (getMfg (cfgOf (run lib ops) a).mfgs).2 with
  | none => rw [hg] at g2; rw [g2] at hm; cases hm
  | some i =>
    rw [hg] at g2
    obtain ⟨ms, m, r, h1, h2, h3, h4⟩ := g2
    rw [h3] at hs
    obtain ⟨⟨f, g, hf, hgf, he⟩, hn⟩ := hs
    rw [← h4] at hf hgf hn
    have hn : cap f ≠ [] := by
      intro h
      apply hn
      rw [hf]
      cases f with
      | nil => rfl
      | cons x f => simp [cap] at h
    have he : cap f = cap g := he
    unfold csrCheck
    simp only [h1, h2, hf, hgf]
    rw [if_neg (by rw [he]; simp), if_neg hn, if_pos (by rw [he]; simp)]

theorem auth_passed {lib : Lib} {ops : List SrvOp} {a : App} {e : Eca} {cb : Cred → Bool}
    (hp : ∀ op ∈ ops, Plain op) (he : ecaSaid lib ops = some e) (ha : Asks lib ops)
    (hcb : a.authCb = some cb) (hi : ∀ c, a.initOk c = true)
    {tls : Tls} (hv : CertVerified tls) {hdr parse ty buf} {x : AuthOut}
    (h : enrollAuth (cfgOf (run lib ops) a) tls hdr parse ty buf = some x) (hA : Authorised x.st) :
    Passed a e cb tls parse buf x.evs := by
  have hh := (C109_calls_decide lib ops hp).2 e he
  obtain ⟨b1, b2, _⟩ := handle_good lib ops a e hh hi tls parse buf
  obtain ⟨h1, h2, h3⟩ := (auth_eca (cfg := cfgOf (run lib ops) a) hh.on hcb hv (asks_http a ha) b1 h).1 hA
  obtain ⟨h4, f, h5, h6, h7⟩ := b2 h1
  refine ⟨h4, ⟨f, h5, by rw [h3, h6]; simp, by rw [← h6]; exact h2⟩, ?_⟩
  intro hc hne
  obtain ⟨csr, h8, h9⟩ := h7 hc
  exact ⟨csr, h8, check_same lib ops a e hh hi tls csr h9 hne⟩

/-- C109: on a server on which enhanced certificate authentication is on and HTTP authentication
is required or CoAP was started, a client with a certificate reaches the CA with an enrolment or
re-enrolment only if the application accepted the client's subject field together with the
configured password, in this very request and whatever the Authorization header says.  The field is
that of the manufacturer whose certificates verify the client's, or the local one.  With the CSR
check on, the CSR repeats the field.  Missing: a CSR check when no manufacturer is registered, see
`C109_nothing_to_compare_false`, and failures inside OpenSSL. -/
theorem C109_application_decides_partial (lib : Lib) (ops : List SrvOp) (a : App) (e : Eca)
    (cb : Cred → Bool) (hp : ∀ op ∈ ops, Plain op) (he : ecaSaid lib ops = some e)
    (ha : Asks lib ops) (hcb : a.authCb = some cb) (hi : ∀ c, a.initOk c = true)
    {tls : Tls} (hv : CertVerified tls) {net : Net} {parse} {re : Bool} {rq : Req} {o : Out}
    (h : simpleEnroll (cfgOf (run lib ops) a) tls net parse re rq = some o) (hca : CaCalled o.evs) :
    Passed a e cb tls parse rq.body o.evs := by
  obtain ⟨x, h1, h2, h3⟩ := enroll_auth h hca
  have := auth_passed hp he ha hcb hi hv h1 h2
  obtain ⟨f, f1, f2, f3⟩ := this.asked
  exact ⟨this.chain, ⟨f, f1, h3 _ f2, f3⟩, this.csr⟩

/-- The same for key generation. -/
theorem C109_keygen_partial (lib : Lib) (ops : List SrvOp) (a : App) (e : Eca)
    (cb : Cred → Bool) (hp : ∀ op ∈ ops, Plain op) (he : ecaSaid lib ops = some e)
    (ha : Asks lib ops) (hcb : a.authCb = some cb) (hi : ∀ c, a.initOk c = true)
    {tls : Tls} (hv : CertVerified tls) {kg : Server.KeygenCfg} {mp : Server.Multi} {net : Net}
    {bodyOut : Nat → Nat} {parse} {rq : Req} {o : Out}
    (h : serverKeygen (cfgOf (run lib ops) a) kg mp tls net bodyOut parse rq = some o)
    (hca : CaCalled o.evs) : Passed a e cb tls parse rq.body o.evs := by
  obtain ⟨k, q, hca⟩ := hca
  rcases Server.serverKeygen_cases h with hs | ⟨ca, x, csr, key, csr2, hr, ho⟩
  · rcases hs.evs _ hca with ⟨c, hc⟩ | hc <;> simp at hc
  · have hA := Server.keygenAnswer_cases (cfgOf (run lib ops) a) mp net bodyOut
        (ca (Server.keygenReq (cfgOf (run lib ops) a) tls rq x (kg.encode csr2)) key)
        (x.evs ++ [.ca .keygen (Server.keygenReq (cfgOf (run lib ops) a) tls rq x (kg.encode csr2))])
        (x.user.getD rq.connUser)
    simp only [← ho] at hA
    have h3 : ∀ e ∈ x.evs, e ∈ o.evs := by
      intro e he
      rcases hA with ⟨_, _, ⟨_, _, h3⟩ | ⟨_, _, _, h3⟩ | ⟨_, _, h3, _⟩⟩ | ⟨_, h3, _⟩ <;>
        rw [h3] <;> simp [he]
    have := auth_passed hp he ha hcb hi hv hr.auth hr.ok
    obtain ⟨f, f1, f2, f3⟩ := this.asked
    exact ⟨this.chain, ⟨f, f1, h3 _ f2, f3⟩, this.csr⟩

/-- C109: and conversely: such a client is authenticated if its certificate chain is known, the
application accepts its field and the password, and the CSR, where it is checked, repeats the
field of the client's manufacturer. -/
theorem C109_accepted (lib : Lib) (ops : List SrvOp) (a : App) (e : Eca)
    (cb : Cred → Bool) (hp : ∀ op ∈ ops, Plain op) (he : ecaSaid lib ops = some e)
    (ha : Asks lib ops) (hcb : a.authCb = some cb) (hi : ∀ c, a.initOk c = true)
    {tls : Tls} (hv : CertVerified tls) {hdr parse ty buf} {x : AuthOut} {f : List Nat}
    (h : enrollAuth (cfgOf (run lib ops) a) tls hdr parse ty buf = some x) (hb : buf ≠ [])
    (hch : tls.chain = true) (hf : tls.peerField (idField a e) = some f) (hok : cb (shown e f) = true)
    (hcsr : e.check = true → (maker a e).isSome ∧ ∃ csr, parse buf = some csr ∧ SameDevice a e tls csr) :
    Authorised x.st := by
  have hh := (C109_calls_decide lib ops hp).2 e he
  obtain ⟨b1, _, b3⟩ := handle_good lib ops a e hh hi tls parse buf
  obtain ⟨h1, h2⟩ := b3 f hch hf (by
    intro hc
    obtain ⟨hm, csr, h3, h4⟩ := hcsr hc
    exact ⟨csr, h3, check_same_maker lib ops a e hh hi tls csr hm h4⟩)
  exact (auth_eca (cfg := cfgOf (run lib ops) a) hh.on hcb hv (asks_http a ha) b1 h).2 hb h1
    (by rw [h2]; exact hok)

/-! ### Examples -/

/-- A library that reads one store from each non-empty text whose first byte is not 0. -/
def ecaLib : Lib := { exLib with loadStore := fun c => if c.head? = some 0 then none else c.head? }

/-- The mode is switched on with field 13 for local certificates, password "pw" and CSR check; one
manufacturer whose devices are known by field 105. -/
def ecaOps : List SrvOp :=
  [.enableEca 13 (some [112, 119]) 1, .addMfg (some [97, 99, 109, 101]) 105 (some [7]) true true true]

/-- An application that knows one device; its certificate verifies with store 7. -/
def ecaApp : App :=
  { exApp with authCb := some fun c => c.user == [100, 101, 118, 49] && c.pwd == [112, 119]
               verify := fun st => if st = 7 then 1 else 0 }

/-- A client with a certificate that says "dev1" in field 105. -/
def ecaTls : Tls :=
  { exTls with peer := some .ok, chain := true
               peerField := fun n => if n = 105 then some [100, 101, 118, 49] else if n = 17 then some [111, 114, 103] else none }

/-- A CSR with this text in field 105. -/
def ecaParse (dev : List Nat) : List Nat → Option Csr := fun _ =>
  some ⟨true, 1, .str [7], fun n => if n = 105 then some dev else if n = 17 then some [111, 114, 103] else none⟩

/-- A request without Authorization header. -/
def ecaRq : Req := { exRq with hdr := (.missing, ⟨.none, [], [], []⟩) }

/-- The device reaches the CA with its own CSR, and not with the CSR of another. -/
example : (∀ op ∈ ecaOps, Plain op) ∧ Asks ecaLib ecaOps ∧
    (∃ e, ecaSaid ecaLib ecaOps = some e ∧ idField ecaApp e = 105 ∧ (maker ecaApp e).isSome ∧
      e.check = true) ∧
    asked (simpleEnroll (cfgOf (run ecaLib ecaOps) ecaApp) ecaTls ⟨true, 100, true⟩
      (ecaParse [100, 101, 118, 49]) false ecaRq) = true ∧
    asked (simpleEnroll (cfgOf (run ecaLib ecaOps) ecaApp) ecaTls ⟨true, 100, true⟩
      (ecaParse [100, 101, 118, 50]) false ecaRq) = false := by
  refine ⟨?_, .inr (by decide), ⟨_, rfl, by decide, by decide, rfl⟩, by decide +kernel, by decide +kernel⟩
  intro op hop
  simp only [ecaOps, List.mem_cons, List.not_mem_nil, or_false] at hop
  rcases hop with rfl | rfl
  · intro p hp; injection hp with hp; subst hp; unfold NoNul; decide
  · exact ⟨rfl, rfl, rfl⟩

/-- The application accepts one device only. -/
def OnlyDev1 (a : App) : Prop := ∃ cb, a.authCb = some cb ∧ ∀ c, cb c = true → c.user = [100, 101, 118, 49]

/-- C109 is false for local certificates if no manufacturer could be registered: with the CSR
check on, a CSR for another device is refused; then the application tries to register a
manufacturer and the call is refused; from then on the same CSR reaches the CA. -/
theorem C109_nothing_to_compare_false :
    ∃ (lib : Lib) (ops : List SrvOp) (bad : SrvOp) (a : App) (tls : Tls) (parse : List Nat → Option Csr)
      (csr : Csr),
      (step lib (run lib ops) bad).1 ≠ .none ∧ OnlyDev1 a ∧
      (∃ e, ecaSaid lib ops = some e ∧ e.check = true ∧ idField a e = 105) ∧
      (∀ b, parse b = some csr) ∧ csr.field 105 = some [100, 101, 118, 50] ∧
      asked (simpleEnroll (cfgOf (run lib ops) a) tls ⟨true, 100, true⟩ parse false ecaRq) = false ∧
      asked (simpleEnroll (cfgOf (run lib (ops ++ [bad])) a) tls ⟨true, 100, true⟩ parse false ecaRq) =
        true := by
  refine ⟨ecaLib, [.enableEca 105 (some [112, 119]) 1], .addMfg (some [97, 99, 109, 101]) 105 (some [0]) true true true,
    ecaApp, ecaTls, ecaParse [100, 101, 118, 50], _, by decide +kernel, ⟨_, rfl, ?_⟩, ⟨_, rfl, rfl, by decide⟩,
    fun _ => rfl, by decide, by decide +kernel, by decide +kernel⟩
  intro c hc
  simp at hc
  exact hc.1

/-- C109 is false for local certificates if manufacturers use different fields (the comment in the
code warns of it): a client known as "dev1" by field 105 gets a CSR for "dev2" to the CA, because
the CSR repeats another manufacturer's field. -/
theorem C109_other_field_false :
    ∃ (lib : Lib) (ops : List SrvOp) (e : Eca) (a : App) (tls : Tls) (parse : List Nat → Option Csr)
      (csr : Csr),
      ecaSaid lib ops = some e ∧ e.check = true ∧ maker a e = none ∧ idField a e = 105 ∧
      tls.peerField 105 = some [100, 101, 118, 49] ∧ (∀ b, parse b = some csr) ∧ csr.field 105 = some [100, 101, 118, 50] ∧
      asked (simpleEnroll (cfgOf (run lib ops) a) tls ⟨true, 100, true⟩ parse false ecaRq) = true :=
  ⟨ecaLib, [.enableEca 105 (some [112, 119]) 1, .addMfg (some [97, 99, 109, 101]) 105 (some [7]) true true true,
      .addMfg (some [111, 114, 103]) 17 (some [8]) true true true], _,
    { ecaApp with verify := fun _ => 0 }, ecaTls, ecaParse [100, 101, 118, 50], _, rfl, rfl, by decide, by decide,
    by decide, fun _ => rfl, by decide, by decide +kernel⟩

/-- C109 is false when OpenSSL fails: a client whose certificate is verified by no manufacturer's
certificates, because of an internal error (-1), is taken for a device of the first one and
reaches the CA by that manufacturer's field. -/
theorem C109_internal_error_false :
    ∃ (lib : Lib) (ops : List SrvOp) (a : App) (tls : Tls),
      (∀ st, a.verify st ≤ 0) ∧ OnlyDev1 a ∧ tls.peerField 13 = some [111, 116, 104, 101, 114] ∧
      (∃ e, ecaSaid lib ops = some e ∧ e.nid = 13) ∧
      asked (simpleEnroll (cfgOf (run lib ops) a) tls ⟨true, 100, true⟩ (ecaParse [100, 101, 118, 49]) false ecaRq) =
        true := by
  refine ⟨ecaLib, ecaOps, { ecaApp with verify := fun _ => -1 },
    { ecaTls with peerField := fun n => if n = 105 then some [100, 101, 118, 49] else some [111, 116, 104, 101, 114] },
    fun _ => (by show (-1 : Int) ≤ 0; decide), ⟨_, rfl, ?_⟩, by decide, ⟨_, rfl, rfl⟩, by decide +kernel⟩
  intro c hc
  simp at hc
  exact hc.1

end Verif.Config
