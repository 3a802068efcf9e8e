import Verif.SampleCliLemmas
import Verif.SampleCliSpec

/-!
# Lemmas about the steps of the sample client
-/
namespace Verif.SampleCli
open Verif.ClientResp (decimal)

/-! ## The set-up -/

theorem can_must {c : Call} {t : List Ev} {e : End Unit} (h : Can (must c) t e) :
    ∃ a, t = [⟨c, a⟩] ∧ ((a.rc = .none ∧ e = .ret ()) ∨ (a.rc ≠ .none ∧ e = .exit 1)) := by
  obtain ⟨a, t', rfl, h⟩ := h
  dsimp only at h
  split at h
  · rename_i hr; exact ⟨a, by rw [h.1], .inr ⟨hr, h.2⟩⟩
  · rename_i hr; exact ⟨a, by rw [h.1], .inl ⟨by simpa using hr, h.2⟩⟩

/-- A program that makes the calls of `cs` and stops where one fails. -/
def Runs (cs : List Call) (p : Prog Unit) : Prop :=
  ∀ t e, Can p t e → (AllOk cs t ∧ e = .ret ()) ∨ (LastBad cs t ∧ e = .exit 1)

theorem runs_must (c : Call) (hc : c ≠ .init) : Runs [c] (must c) := by
  intro t e h
  obtain ⟨a, rfl, ⟨h1, h2⟩ | ⟨h1, h2⟩⟩ := can_must h
  · exact .inl ⟨⟨rfl, by intro x hx; simp only [List.mem_singleton] at hx; subst hx; simp [Worked, hc, h1]⟩, h2⟩
  · exact .inr ⟨⟨[], ⟨c, a⟩, [], rfl, rfl, by simp, by simp [Worked, hc, h1]⟩, h2⟩

theorem runs_ret : Runs [] (.ret ()) := by
  intro t e h
  obtain ⟨rfl, rfl⟩ := h
  exact .inl ⟨⟨rfl, by simp⟩, rfl⟩

theorem runs_bind {cs ds : List Call} {p q : Prog Unit} (hp : Runs cs p) (hq : Runs ds q) :
    Runs (cs ++ ds) (p.bind fun _ => q) := by
  intro t e h
  rcases can_bind _ _ _ _ h with ⟨_, t1, t2, rfl, h1, h2⟩ | ⟨x, h1, h2⟩
  · rcases hp _ _ h1 with ⟨⟨m1, w1⟩, _⟩ | ⟨_, hx⟩
    · rcases hq _ _ h2 with ⟨⟨m2, w2⟩, he⟩ | ⟨⟨t', x, r, rfl, hr, w2, hx⟩, he⟩
      · refine .inl ⟨⟨by rw [List.map_append, m1, m2], ?_⟩, he⟩
        intro y hy
        rcases List.mem_append.1 hy with hy | hy
        · exact w1 y hy
        · exact w2 y hy
      · refine .inr ⟨⟨t1 ++ t', x, r, by simp, ?_, ?_, hx⟩, he⟩
        · rw [hr, ← m1]; simp
        · intro y hy
          rcases List.mem_append.1 hy with hy | hy
          · exact w1 y hy
          · exact w2 y hy
    · cases hx
  · rcases hp _ _ h2 with ⟨_, hx⟩ | ⟨⟨t', y, r, rfl, hr, w, hy⟩, hx⟩
    · subst hx; simp [End.stops] at h1
    · subst hx
      simp only [End.stops, Option.some.injEq] at h1
      exact .inr ⟨⟨t', y, r ++ ds, rfl, by rw [hr, List.append_assoc], w, hy⟩, h1.symm⟩

theorem runs_given {b : Bool} {c : Call} (hc : c ≠ .init) : Runs (if b then [c] else []) (given b (must c)) := by
  cases b
  · exact runs_ret
  · exact runs_must c hc

theorem runs_configure (o : Opts) : Runs (SetUp o) (configure o) := by
  have h1 : Runs ([Call.readTimeout o.timeout] ++ ([Call.setAuth o.uid o.pwd o.cert o.key]
      ++ ((if o.srp then [Call.enableSrp 1024 o.srpUid o.srpPwd] else [])
      ++ ((if o.tokenMode then [Call.setCredCb] else [])
      ++ ([Call.setServer o.server o.port o.seg]
      ++ (match o.proxy with | some p => [Call.setProxy p] | none => [])))))) _ :=
    runs_bind (runs_must _ (by simp)) (runs_bind (runs_must _ (by simp)) (runs_bind (runs_given (by simp))
      (runs_bind (runs_given (by simp)) (runs_bind (runs_must _ (by simp))
        (q := match o.proxy with | some p => must (.setProxy p) | none => .ret ()) (by
          cases o.proxy with
          | none => exact runs_ret
          | some p => exact runs_must _ (by simp))))))
  intro t e h
  obtain ⟨a, t', rfl, h⟩ := h
  by_cases ha : a.ptr = true
  · simp only [ha, Bool.not_true, Bool.false_eq_true, if_false] at h
    rcases h1 _ _ h with ⟨⟨m, w⟩, he⟩ | ⟨⟨t2, x, r, rfl, hr, w, hx⟩, he⟩
    · refine .inl ⟨⟨?_, ?_⟩, he⟩
      · simp only [List.map_cons, m]; simp [SetUp]; cases o.proxy <;> rfl
      · intro x hx
        rcases List.mem_cons.1 hx with rfl | hx
        · simp [Worked, ha]
        · exact w x hx
    · refine .inr ⟨⟨⟨.init, a⟩ :: t2, x, r, rfl, ?_, ?_, hx⟩, he⟩
      · have : SetUp o = Call.init :: ([Call.readTimeout o.timeout] ++ ([Call.setAuth o.uid o.pwd o.cert o.key]
            ++ ((if o.srp then [Call.enableSrp 1024 o.srpUid o.srpPwd] else [])
            ++ ((if o.tokenMode then [Call.setCredCb] else [])
            ++ ([Call.setServer o.server o.port o.seg]
            ++ (match o.proxy with | some p => [Call.setProxy p] | none => [])))))) := by simp [SetUp]; cases o.proxy <;> rfl
        rw [this, hr]; rfl
      · intro y hy
        rcases List.mem_cons.1 hy with rfl | hy
        · simp [Worked, ha]
        · exact w y hy
  · have ha' : a.ptr = false := by simpa using ha
    simp only [ha', Bool.not_false, if_true] at h
    obtain ⟨rfl, rfl⟩ := h
    exact .inr ⟨⟨[], ⟨.init, a⟩, (SetUp o).tail, rfl, by simp [SetUp], by simp, by simp [Worked, ha']⟩, rfl⟩

/-! ## What is left for the rest of a round -/

/-- `split` behind an application of a function. -/
macro "bsplit" : tactic => `(tactic| ((try dsimp only); split))

/-- Neither set-up nor the end of the context. -/
def Inner (c : Call) : Prop := ¬ OfSetUp c ∧ c ≠ .destroy

theorem only_saveCert (S : Call → Prop) (o : Opts) (n : List Nat) (b : Buf)
    (h1 : ∀ b, S (.toPem b)) (h2 : ∀ n b, S (.write n b)) : Only S (saveCert o n b) := by
  unfold saveCert
  bsplit
  · refine ⟨h1 _, fun a => ?_⟩
    bsplit
    · exact ⟨h2 _ _, fun _ => trivial⟩
    · trivial
  · exact ⟨h2 _ _, fun _ => trivial⟩

theorem only_copyInto {α : Type} (S : Call → Prop) (c : Call) (n : Nat) (k : EstErr → Buf → Prog α)
    (h1 : S c) (h2 : ∀ e b, Only S (k e b)) : Only S (copyInto c n k) := by
  refine ⟨h1, fun a => ?_⟩
  bsplit
  · exact h2 _ _
  · bsplit
    · trivial
    · exact h2 _ _

/-- Calls of `fetch`. -/
def OfFetch : Call → Prop
  | .alloc _ | .copyKey | .copyCert | .toPem _ | .write .. => True
  | _ => False

theorem only_fetchCert (o : Opts) (tid i len : Nat) : Only OfFetch (fetchCert o tid i len) := by
  refine ⟨trivial, fun a => ?_⟩
  bsplit
  · trivial
  · refine only_copyInto _ _ _ _ trivial fun e b => ?_
    exact only_bind _ _ _ (only_saveCert _ _ _ _ (fun _ => trivial) (fun _ _ => trivial)) (fun _ => trivial)

theorem only_fetch (o : Opts) (tid i : Nat) (b : Ans) : Only OfFetch (fetch o tid i b) := by
  unfold fetch
  bsplit
  · trivial
  · bsplit
    · refine ⟨trivial, fun a => ?_⟩
      bsplit
      · trivial
      · refine only_copyInto _ _ _ _ trivial fun e b => ?_
        exact only_bind _ _ _ ⟨trivial, fun _ => trivial⟩ (fun _ => only_fetchCert _ _ _ _)
    · exact only_fetchCert _ _ _ _

theorem only_mono {α : Type} {S T : Call → Prop} (h : ∀ c, S c → T c) : ∀ (p : Prog α), Only S p → Only T p := by
  intro p
  induction p with
  | ret a => intro _; trivial
  | exit n => intro _; trivial
  | ub => intro _; trivial
  | busy => intro _; trivial
  | ask c k ih => intro ho; exact ⟨h c ho.1, fun a => ih a (ho.2 a)⟩

/-- Calls of an enrolment. -/
def OfEnrol (c : Call) : Prop :=
  OfFetch c ∨ IsEnrol c ∨ c = .forcePop ∨ c = .readCsr ∨ c = .freeReq ∨ c = .getAttrs ∨ c = .newReq ∨
  (∃ n, c = .populate n) ∨ c = .decodeAttrs ∨ c = .nextAttr ∨ ∃ n s, c = .addAttr n s

theorem only_simpleGo (o : Opts) (tid i : Nat) : Only OfEnrol (simpleGo o tid i) := by
  unfold simpleGo
  bsplit
  · refine ⟨by simp [OfEnrol], fun r => ?_⟩
    bsplit
    · trivial
    · refine ⟨by split <;> simp [OfEnrol, IsEnrol], fun b => ⟨by simp [OfEnrol], fun _ => ?_⟩⟩
      exact only_mono (fun c h => .inl h) _ (only_fetch _ _ _ _)
  · refine ⟨by split <;> simp [OfEnrol, IsEnrol], fun b => ?_⟩
    exact only_mono (fun c h => .inl h) _ (only_fetch _ _ _ _)

theorem only_simple (o : Opts) (tid i : Nat) : Only OfEnrol (simpleAttempt o tid i) := by
  unfold simpleAttempt
  bsplit
  · refine ⟨by simp [OfEnrol], fun a => ?_⟩
    bsplit
    · trivial
    · exact only_simpleGo _ _ _
  · exact only_simpleGo _ _ _

/-- Calls of the loop over the attributes. -/
def OfLoop (c : Call) : Prop := c = .nextAttr ∨ ∃ n s, c = .addAttr n s

theorem only_loop : ∀ (f n : Nat), Only OfLoop (attrLoop f n)
  | 0, 0 => trivial
  | _ + 1, 0 => trivial
  | 0, _ + 1 => trivial
  | f + 1, n + 1 => by
    refine ⟨.inl rfl, fun a => ?_⟩
    bsplit
    · exact only_loop _ _
    · bsplit
      · exact ⟨.inr ⟨_, _, rfl⟩, fun _ => only_loop _ _⟩
      · bsplit
        · exact ⟨.inr ⟨_, _, rfl⟩, fun _ => only_loop _ _⟩
        · bsplit
          · exact only_loop _ _
          · exact ⟨.inr ⟨_, _, rfl⟩, fun _ => only_loop _ _⟩

theorem loop_enrol {c : Call} (h : OfLoop c) : OfEnrol c := by
  rcases h with rfl | ⟨n, s, rfl⟩ <;> simp [OfEnrol]

theorem only_regular (o : Opts) (tid i f : Nat) : Only OfEnrol (regularAttempt o tid i f) := by
  refine ⟨by simp [OfEnrol], fun g => ?_⟩
  bsplit
  · trivial
  · refine ⟨by simp [OfEnrol], fun r => ?_⟩
    bsplit
    · trivial
    · refine ⟨by simp [OfEnrol], fun p => ?_⟩
      bsplit
      · trivial
      · refine ⟨by simp [OfEnrol], fun d => ?_⟩
        bsplit
        · trivial
        · refine only_bind _ _ _ (only_mono (fun c h => loop_enrol h) _ (only_loop _ _)) fun _ => ?_
          refine ⟨by split <;> simp [OfEnrol, IsEnrol], fun b => ?_⟩
          exact only_mono (fun c h => .inl h) _ (only_fetch _ _ _ _)

theorem only_delay (d t : Int) : Only IsWait (delay d t) := by
  unfold delay
  bsplit
  · exact ⟨trivial, fun _ => trivial⟩
  · bsplit
    · refine ⟨trivial, fun n => ?_⟩
      bsplit
      · trivial
      · bsplit
        · exact ⟨trivial, fun _ => trivial⟩
        · trivial
    · trivial

theorem only_again {α : Type} (S : Call → Prop) (rc : α → EstErr) (p : Prog α) (hp : Only S p) (hw : ∀ c, IsWait c → S c) :
    Only S (again rc p) := by
  refine only_bind _ _ _ hp fun a => ?_
  bsplit
  · refine ⟨hw _ trivial, fun r => ?_⟩
    refine only_bind _ _ _ ?_ fun _ => hp
    bsplit
    · exact only_mono hw _ (only_delay _ _)
    · trivial
  · trivial

/-- Calls of the part of a round that gets CA certificates. -/
def OfCa (c : Call) : Prop :=
  c = .getCacerts ∨ c = .copyCacerts ∨ (∃ n, c = .alloc n) ∨ (∃ b, c = .toPem b) ∨ ∃ n b, c = .write n b

theorem only_ca (o : Opts) (tid i : Nat) : Only OfCa (caPart o tid i) := by
  unfold caPart
  bsplit
  · refine ⟨by simp [OfCa], fun g => ?_⟩
    bsplit
    · trivial
    · refine ⟨by simp [OfCa], fun m => ?_⟩
      bsplit
      · trivial
      · refine only_copyInto _ _ _ _ (by simp [OfCa]) fun e b => ?_
        exact only_bind _ _ _ (only_saveCert _ _ _ _ (fun _ => by simp [OfCa]) (fun _ _ => by simp [OfCa])) (fun _ => trivial)
  · trivial

theorem only_enrollPart (o : Opts) (tid i f : Nat) (s : St) :
    Only (fun c => OfEnrol c ∨ IsWait c) (enrollPart o tid i f s) := by
  unfold enrollPart
  bsplit
  · exact only_bind _ _ _ (only_again _ _ _ (only_mono (fun c h => .inl h) _ (only_regular _ _ _ _)) (fun c h => .inr h)) (fun _ => trivial)
  · bsplit
    · exact only_bind _ _ _ (only_again _ _ _ (only_mono (fun c h => .inl h) _ (only_simple _ _ _)) (fun c h => .inr h)) (fun _ => trivial)
    · bsplit
      · refine only_bind _ _ _ ⟨by simp [OfEnrol], fun g => ?_⟩ (fun _ => trivial)
        bsplit
        · trivial
        · exact ⟨by simp [OfEnrol, OfFetch], fun _ => trivial⟩
      · trivial

/-- Calls of a re-enrolment. -/
def OfReenrol (c : Call) : Prop :=
  c = .reenroll ∨ IsWait c ∨ c = .copyCert ∨ (∃ n, c = .alloc n) ∨ (∃ b, c = .toPem b) ∨ ∃ n b, c = .write n b

theorem only_reenrollPart (o : Opts) (tid i : Nat) (s : St) : Only OfReenrol (reenrollPart o tid i s) := by
  unfold reenrollPart
  bsplit
  · refine only_bind _ _ _ (only_again _ _ _ ⟨by simp [OfReenrol], fun _ => trivial⟩ (fun c h => .inr (.inl h))) fun a => ?_
    bsplit
    · trivial
    · refine ⟨by simp [OfReenrol], fun m => ?_⟩
      bsplit
      · trivial
      · refine only_copyInto _ _ _ _ (by simp [OfReenrol]) fun e b => ?_
        exact only_bind _ _ _ (only_saveCert _ _ _ _ (fun _ => by simp [OfReenrol]) (fun _ _ => by simp [OfReenrol])) (fun _ => trivial)
  · trivial

/-! ## The talk -/

theorem filter_only {S : Call → Prop} {t : List Ev} (h : ∀ x ∈ t, S x.call) (hn : ∀ c, S c → ¬ IsTalk c) :
    t.filter (fun x => decide (IsTalk x.call)) = [] := by
  rw [List.filter_eq_nil_iff]
  intro x hx
  simpa using hn _ (h x hx)

theorem filter_wait {t : List Ev} (h : ∀ x ∈ t, IsWait x.call) :
    t.filter (fun x => decide (IsTalk x.call)) = t := by
  rw [List.filter_eq_self]
  intro x hx
  have := h x hx
  simp [IsTalk, this]

theorem fetch_not_talk {c : Call} (h : OfFetch c) : ¬ IsTalk c := by
  cases c <;> simp_all [OfFetch, IsTalk, IsEnrol, IsWait]

theorem loop_not_talk {c : Call} (h : OfLoop c) : ¬ IsTalk c := by
  rcases h with rfl | ⟨n, s, rfl⟩ <;> simp [IsTalk, IsEnrol, IsWait]

theorem ca_not_talk {c : Call} (h : OfCa c) : ¬ IsTalk c := by
  rcases h with rfl | rfl | ⟨n, rfl⟩ | ⟨n, rfl⟩ | ⟨n, b, rfl⟩ <;> simp [IsTalk, IsEnrol, IsWait]

theorem setup_not_talk {c : Call} (h : OfSetUp c) : ¬ IsTalk c := by
  cases c <;> simp_all [OfSetUp, IsTalk, IsEnrol, IsWait]

/-- What an attempt says: at most one request, and it is put off exactly if the result
says so. -/
def One {α : Type} (S : Call → Prop) (rc : α → EstErr) (p : Prog α) : Prop :=
  ∀ t e, Can p t e → Sane t → AtMostOne S (t.filter fun x => decide (IsTalk x.call)) ∧
    ∀ a, e = .ret a → ∀ x ∈ t.filter (fun x => decide (IsTalk x.call)), (x.ans.rc = .caEnrollRetry ↔ rc a = .caEnrollRetry)

theorem sane_left {a b : List Ev} (h : Sane (a ++ b)) : Sane a := fun x hx => h x (List.mem_append.2 (.inl hx))
theorem sane_right {a b : List Ev} (h : Sane (a ++ b)) : Sane b := fun x hx => h x (List.mem_append.2 (.inr hx))
theorem sane_tail {a : Ev} {b : List Ev} (h : Sane (a :: b)) : Sane b := fun x hx => h x (List.mem_cons_of_mem _ hx)

theorem can_fetchCert {o : Opts} {tid i len : Nat} {t : List Ev} {rv : EstErr}
    (h : Can (fetchCert o tid i len) t (.ret rv)) (hs : Sane t) : rv ≠ .caEnrollRetry := by
  obtain ⟨m, t1, rfl, h⟩ := h
  dsimp only at h
  split at h
  · obtain ⟨_, h⟩ := h; cases h; simp
  · obtain ⟨a, t2, rfl, h⟩ := h
    have hc : a.rc ≠ .caEnrollRetry := by
      intro hh
      have := hs ⟨.copyCert, a⟩ (by simp) hh
      simp [IsEnrol] at this
    dsimp only at h
    split at h
    · rcases can_bind _ _ _ _ h with ⟨_, _, _, _, _, h⟩ | ⟨x, h, _⟩
      · obtain ⟨_, h⟩ := h; cases h; exact hc
      · exact absurd h stops_ret
    · split at h
      · cases h.2
      · rcases can_bind _ _ _ _ h with ⟨_, _, _, _, _, h⟩ | ⟨x, h, _⟩
        · obtain ⟨_, h⟩ := h; cases h; simp
        · exact absurd h stops_ret

theorem can_fetch {o : Opts} {tid i : Nat} {b : Ans} {t : List Ev} {rv : EstErr}
    (h : Can (fetch o tid i b) t (.ret rv)) (hs : Sane t) : b.rc = .caEnrollRetry ↔ rv = .caEnrollRetry := by
  unfold fetch at h
  split at h
  · obtain ⟨_, h⟩ := h; cases h; rfl
  · rename_i hb
    have hb' : b.rc = .none := by simpa using hb
    have : rv ≠ .caEnrollRetry := by
      split at h
      · obtain ⟨m, t1, rfl, h⟩ := h
        dsimp only at h
        split at h
        · obtain ⟨_, h⟩ := h; cases h; simp
        · obtain ⟨a, t2, rfl, h⟩ := h
          have hs2 : Sane t2 := sane_tail (sane_tail hs)
          dsimp only at h
          split at h
          · rcases can_bind _ _ _ _ h with ⟨_, u1, u2, rfl, _, h⟩ | ⟨x, h, _⟩
            · exact can_fetchCert h (sane_right hs2)
            · exact absurd h stops_ret
          · split at h
            · cases h.2
            · rcases can_bind _ _ _ _ h with ⟨_, u1, u2, rfl, _, h⟩ | ⟨x, h, _⟩
              · exact can_fetchCert h (sane_right hs2)
              · exact absurd h stops_ret
      · exact can_fetchCert h hs
    simp [hb', this]

theorem fetch_talk {o : Opts} {tid i : Nat} {b : Ans} {t : List Ev} {e : End EstErr} (h : Can (fetch o tid i b) t e) :
    t.filter (fun x => decide (IsTalk x.call)) = [] :=
  filter_only (only_can _ _ _ _ (only_fetch _ _ _ _) h) (fun _ => fetch_not_talk)

theorem filter_cons_talk {x : Ev} {t : List Ev} (h : IsTalk x.call) :
    (x :: t).filter (fun x => decide (IsTalk x.call)) = x :: t.filter (fun x => decide (IsTalk x.call)) := by
  simp [h]

theorem filter_cons_other {x : Ev} {t : List Ev} (h : ¬ IsTalk x.call) :
    (x :: t).filter (fun x => decide (IsTalk x.call)) = t.filter (fun x => decide (IsTalk x.call)) := by
  simp [h]

theorem one_simpleGo (o : Opts) (tid i : Nat) : One IsEnrol id (simpleGo o tid i) := by
  intro t e h hs
  unfold simpleGo at h
  split at h
  · obtain ⟨r, t1, rfl, h⟩ := h
    rw [filter_cons_other (by simp [IsTalk, IsEnrol, IsWait])]
    dsimp only at h
    split at h
    · obtain ⟨rfl, rfl⟩ := h; simp [AtMostOne]
    · obtain ⟨b, t2, rfl, h⟩ := h
      obtain ⟨u, t3, rfl, h⟩ := h
      have hk : IsEnrol (if o.keygen then Call.keygenEnrollCsr false else Call.enrollCsr false) := by split <;> trivial
      rw [filter_cons_talk (.inl hk), filter_cons_other (by simp [IsTalk, IsEnrol, IsWait]), fetch_talk h]
      refine ⟨⟨by simp, by simpa using hk⟩, ?_⟩
      rintro a rfl x hx
      simp only [List.mem_singleton] at hx
      subst hx
      exact can_fetch h (sane_tail (sane_tail (sane_tail hs)))
  · obtain ⟨b, t2, rfl, h⟩ := h
    have hk : IsEnrol (if o.keygen then Call.keygenEnroll o.cn else Call.enroll o.cn) := by split <;> trivial
    rw [filter_cons_talk (.inl hk), fetch_talk h]
    refine ⟨⟨by simp, by simpa using hk⟩, ?_⟩
    rintro a rfl x hx
    simp only [List.mem_singleton] at hx
    subst hx
    exact can_fetch h (sane_tail hs)

theorem one_simple (o : Opts) (tid i : Nat) : One IsEnrol id (simpleAttempt o tid i) := by
  intro t e h hs
  unfold simpleAttempt at h
  split at h
  · obtain ⟨r, t1, rfl, h⟩ := h
    rw [filter_cons_other (by simp [IsTalk, IsEnrol, IsWait])]
    dsimp only at h
    split at h
    · obtain ⟨rfl, rfl⟩ := h; simp [AtMostOne]
    · exact one_simpleGo o tid i _ _ h (sane_tail hs)
  · exact one_simpleGo o tid i _ _ h hs

theorem one_regular (o : Opts) (tid i f : Nat) : One IsEnrol id (regularAttempt o tid i f) := by
  intro t e h hs
  obtain ⟨g, t1, rfl, h⟩ := h
  rw [filter_cons_other (by simp [IsTalk, IsEnrol, IsWait])]
  dsimp only at h
  split at h
  · obtain ⟨rfl, rfl⟩ := h; simp [AtMostOne]
  · obtain ⟨r, t2, rfl, h⟩ := h
    rw [filter_cons_other (by simp [IsTalk, IsEnrol, IsWait])]
    dsimp only at h
    split at h
    · obtain ⟨rfl, rfl⟩ := h; simp [AtMostOne]
    · obtain ⟨p, t3, rfl, h⟩ := h
      rw [filter_cons_other (by simp [IsTalk, IsEnrol, IsWait])]
      dsimp only at h
      split at h
      · obtain ⟨rfl, rfl⟩ := h; simp [AtMostOne]
      · obtain ⟨d, t4, rfl, h⟩ := h
        rw [filter_cons_other (by simp [IsTalk, IsEnrol, IsWait])]
        dsimp only at h
        have hs4 := sane_tail (sane_tail (sane_tail (sane_tail hs)))
        split at h
        · obtain ⟨rfl, rfl⟩ := h; simp [AtMostOne]
        · rcases can_bind _ _ _ _ h with ⟨_, u1, u2, rfl, hl, h5⟩ | ⟨x, hx, hl⟩
          · obtain ⟨b, t5, rfl, h6⟩ := h5
            have hk : IsEnrol (if o.keygen then Call.keygenEnrollCsr true else Call.enrollCsr true) := by split <;> trivial
            rw [List.filter_append, filter_only (only_can _ _ _ _ (only_loop _ _) hl) (fun _ => loop_not_talk),
              filter_cons_talk (.inl hk), fetch_talk h6]
            refine ⟨⟨by simp, by simpa using hk⟩, ?_⟩
            rintro a rfl x hx
            simp only [List.nil_append, List.mem_singleton] at hx
            subst hx
            exact can_fetch h6 (sane_tail (sane_right hs4))
          · rw [filter_only (only_can _ _ _ _ (only_loop _ _) hl) (fun _ => loop_not_talk)]
            simp [AtMostOne]

theorem one_reenroll : One (· = .reenroll) Ans.rc (.ask .reenroll .ret) := by
  intro t e h hs
  obtain ⟨a, t1, rfl, h⟩ := h
  obtain ⟨rfl, rfl⟩ := h
  rw [filter_cons_talk (by simp [IsTalk])]
  refine ⟨by simp [AtMostOne], ?_⟩
  intro b hb x hx
  cases hb
  simp only [List.filter_nil, List.mem_singleton] at hx
  subst hx
  rfl

theorem can_delay {r : Ans} {t : List Ev} {e : End Unit} (hr : r.rc = .none) (h : Can (delay r.delay r.time) t e) :
    WaitsFor r t ∧ e = .ret () := by
  unfold delay at h
  unfold WaitsFor
  rw [if_neg (by simp [hr])]
  split at h
  · rename_i hd
    obtain ⟨a, t1, rfl, rfl, he⟩ := h
    rw [if_pos hd]; exact ⟨rfl, he⟩
  · rename_i hd
    rw [if_neg hd]
    split at h
    · rename_i ht
      rw [if_pos ht]
      obtain ⟨n, t1, rfl, h⟩ := h
      dsimp only at h
      split at h
      · obtain ⟨rfl, rfl⟩ := h
        refine ⟨⟨n, ?_⟩, rfl⟩
        rw [if_neg (by omega)]
      · split at h
        · obtain ⟨a, t2, rfl, rfl, rfl⟩ := h
          refine ⟨⟨n, ?_⟩, rfl⟩
          rw [if_pos (by omega)]
          exact ⟨a, rfl⟩
        · obtain ⟨rfl, rfl⟩ := h
          refine ⟨⟨n, ?_⟩, rfl⟩
          rw [if_neg (by omega)]
    · rename_i ht
      rw [if_neg ht]
      exact h

theorem can_again {α : Type} {S : Call → Prop} {rc : α → EstErr} {p : Prog α} (hp : One S rc p)
    {t : List Ev} {e : End α} (h : Can (again rc p) t e) (hs : Sane t) :
    Talked S (∀ a, e ≠ .ret a) (t.filter fun x => decide (IsTalk x.call)) := by
  rcases can_bind _ _ _ _ h with ⟨a, t1, t2, rfl, h1, h7⟩ | ⟨x, hx, h1⟩
  · have o1 := hp _ _ h1 (sane_left hs)
    split at h7
    · rename_i ha
      obtain ⟨r, t3, rfl, h8⟩ := h7
      rcases can_bind _ _ _ _ h8 with ⟨_, w, t4, rfl, h2, h3⟩ | ⟨x, hx, h2⟩
      · have o2 := hp _ _ h3 (sane_right (sane_tail (sane_right hs)))
        have hw : WaitsFor r w ∧ ∀ x ∈ w, IsWait x.call := by
          split at h2
          · rename_i hr
            exact ⟨(can_delay hr h2).1, only_can _ _ _ _ (only_delay _ _) h2⟩
          · rename_i hr
            obtain ⟨rfl, _⟩ := h2
            exact ⟨by simp [WaitsFor, hr], by simp⟩
        refine .inr ⟨_, _, w, r, ?_, o1.1, o2.1, fun x hx => (o1.2 a rfl x hx).2 ha, hw.1⟩
        rw [List.filter_append, filter_cons_talk (by simp [IsTalk, IsWait]), List.filter_append, filter_wait hw.2]
      · exfalso
        split at h2
        · rename_i hr
          have := (can_delay hr h2).2
          subst this
          simp [End.stops] at hx
        · obtain ⟨_, rfl⟩ := h2
          simp [End.stops] at hx
    · rename_i ha
      obtain ⟨rfl, rfl⟩ := h7
      rw [List.append_nil]
      exact .inl ⟨o1.1, fun _ x hx hh => ha ((o1.2 a rfl x hx).1 hh)⟩
  · have o1 := hp _ _ h1 hs
    refine .inl ⟨o1.1, fun hn => absurd ?_ hn⟩
    intro a he
    subst he
    exact stops_ret hx

theorem talked_stop {S : Call → Prop} {p q : Prop} {l : List Ev} (h : Talked S p l) (hpq : p → q) : Talked S q l := by
  rcases h with ⟨h1, h2⟩ | h
  · exact .inl ⟨h1, fun hq => h2 (fun hp => hq (hpq hp))⟩
  · exact .inr h

theorem talked_nil {S : Call → Prop} {p : Prop} : Talked S p [] := .inl ⟨by simp [AtMostOne], by simp⟩

theorem talk_enrollPart {o : Opts} {tid i f : Nat} {s : St} {t : List Ev} {e : End St}
    (h : Can (enrollPart o tid i f s) t e) (hs : Sane t) :
    Talked IsEnrol (∀ a, e ≠ .ret a) (t.filter fun x => decide (IsTalk x.call)) := by
  unfold enrollPart at h
  split at h
  · rcases can_bind _ _ _ _ h with ⟨a, t1, t2, rfl, h1, h⟩ | ⟨x, hx, h1⟩
    · obtain ⟨rfl, rfl⟩ := h
      rw [List.append_nil] at hs ⊢
      exact talked_stop (can_again (one_regular _ _ _ _) h1 hs) (fun hn => absurd rfl (hn a))
    · refine talked_stop (can_again (one_regular _ _ _ _) h1 hs) (fun hn a he => ?_)
      subst he; exact stops_ret hx
  · split at h
    · rcases can_bind _ _ _ _ h with ⟨a, t1, t2, rfl, h1, h⟩ | ⟨x, hx, h1⟩
      · obtain ⟨rfl, rfl⟩ := h
        rw [List.append_nil] at hs ⊢
        exact talked_stop (can_again (one_simple _ _ _) h1 hs) (fun hn => absurd rfl (hn a))
      · refine talked_stop (can_again (one_simple _ _ _) h1 hs) (fun hn a he => ?_)
        subst he; exact stops_ret hx
    · split at h
      · have : ∀ x ∈ t, ¬ IsTalk x.call := by
          refine only_can (fun c => ¬ IsTalk c) _ _ _ ?_ h
          refine only_bind _ _ _ ⟨by simp [IsTalk, IsEnrol, IsWait], fun g => ?_⟩ (fun _ => trivial)
          bsplit
          · trivial
          · exact ⟨by simp [IsTalk, IsEnrol, IsWait], fun _ => trivial⟩
        rw [filter_only (S := fun c => ¬ IsTalk c) this (fun c hc => hc)]
        exact talked_nil
      · obtain ⟨rfl, _⟩ := h
        exact talked_nil

theorem talk_reenrollPart {o : Opts} {tid i : Nat} {s : St} {t : List Ev} {e : End St}
    (h : Can (reenrollPart o tid i s) t e) (hs : Sane t) :
    Talked (· = .reenroll) (∀ a, e ≠ .ret a) (t.filter fun x => decide (IsTalk x.call)) := by
  unfold reenrollPart at h
  split at h
  · rcases can_bind _ _ _ _ h with ⟨a, t1, t2, rfl, h1, h⟩ | ⟨x, hx, h1⟩
    · have ht : ∀ x ∈ t2, ¬ IsTalk x.call := by
        refine only_can (fun c => ¬ IsTalk c) _ _ _ ?_ h
        bsplit
        · trivial
        · refine ⟨by simp [IsTalk, IsEnrol, IsWait], fun m => ?_⟩
          bsplit
          · trivial
          · refine only_copyInto _ _ _ _ (by simp [IsTalk, IsEnrol, IsWait]) fun e b => ?_
            exact only_bind _ _ _ (only_saveCert _ _ _ _ (fun _ => by simp [IsTalk, IsEnrol, IsWait])
              (fun _ _ => by simp [IsTalk, IsEnrol, IsWait])) (fun _ => trivial)
      rw [List.filter_append, filter_only (S := fun c => ¬ IsTalk c) ht (fun c hc => hc), List.append_nil]
      exact talked_stop (can_again one_reenroll h1 (sane_left hs)) (fun hn => absurd rfl (hn a))
    · refine talked_stop (can_again one_reenroll h1 hs) (fun hn a he => ?_)
      subst he; exact stops_ret hx
  · obtain ⟨rfl, _⟩ := h
    exact talked_nil

theorem only_finish (s : St) : Only (fun c => (∃ n e, c = .failed n e) ∨ c = .destroy) (finish s) := by
  unfold finish
  split
  · exact ⟨.inl ⟨_, _, rfl⟩, fun _ => ⟨.inr rfl, fun _ => trivial⟩⟩
  · exact ⟨.inr rfl, fun _ => trivial⟩

theorem can_finish {s : St} {t : List Ev} {e : End Unit} (h : Can (finish s) t e) :
    e = .ret () ∧ ((s.rv = .none ∧ ∃ a, t = [⟨.destroy, a⟩]) ∨
      (s.rv ≠ .none ∧ ∃ a b, t = [⟨.failed s.op s.rv, a⟩, ⟨.destroy, b⟩])) := by
  unfold finish at h
  split at h
  · rename_i hr
    obtain ⟨a, t1, rfl, b, t2, rfl, rfl, rfl⟩ := h
    exact ⟨rfl, .inr ⟨hr, a, b, rfl⟩⟩
  · rename_i hr
    obtain ⟨a, t1, rfl, rfl, rfl⟩ := h
    exact ⟨rfl, .inl ⟨by simpa using hr, a, rfl⟩⟩

/-- The parts of a round behind the set-up; what comes after a part that stops is empty. -/
theorem use_parts {o : Opts} {tid i f : Nat} {t : List Ev} {e : End Unit} (h : Can (use o tid i f) t e) :
    ∃ ta te tr tf, t = ta ++ (te ++ (tr ++ tf)) ∧ (∃ x, Can (caPart o tid i) ta x) ∧
      (te = [] ∨ ∃ s x, Can (enrollPart o tid i f s) te x ∧ (e = .ret () → ∃ a, x = .ret a)) ∧
      (tr = [] ∨ ∃ s x, Can (reenrollPart o tid i s) tr x ∧ (e = .ret () → ∃ a, x = .ret a)) ∧
      (tf = [] ∧ e ≠ .ret () ∨ ∃ s, Can (finish s) tf e) := by
  rcases can_bind _ _ _ _ h with ⟨s1, ta, t2, rfl, h1, h⟩ | ⟨x, hx, h1⟩
  · rcases can_bind _ _ _ _ h with ⟨s2, te, t3, rfl, h2, h⟩ | ⟨x, hx, h2⟩
    · rcases can_bind _ _ _ _ h with ⟨s3, tr, t4, rfl, h3, h⟩ | ⟨x, hx, h3⟩
      · exact ⟨ta, te, tr, t4, rfl, ⟨_, h1⟩, .inr ⟨_, _, h2, fun _ => ⟨_, rfl⟩⟩, .inr ⟨_, _, h3, fun _ => ⟨_, rfl⟩⟩, .inr ⟨_, h⟩⟩
      · exact ⟨ta, te, t3, [], by simp, ⟨_, h1⟩, .inr ⟨_, _, h2, fun _ => ⟨_, rfl⟩⟩,
          .inr ⟨_, _, h3, fun he => by subst he; exact absurd hx stops_ret⟩,
          .inl ⟨rfl, fun he => by subst he; exact absurd hx stops_ret⟩⟩
    · exact ⟨ta, t2, [], [], by simp, ⟨_, h1⟩, .inr ⟨_, _, h2, fun he => by subst he; exact absurd hx stops_ret⟩, .inl rfl,
          .inl ⟨rfl, fun he => by subst he; exact absurd hx stops_ret⟩⟩
  · exact ⟨t, [], [], [], by simp, ⟨_, h1⟩, .inl rfl, .inl rfl,
      .inl ⟨rfl, fun he => by subst he; exact absurd hx stops_ret⟩⟩

theorem setup_ofSetUp (o : Opts) : ∀ c ∈ SetUp o, OfSetUp c := by
  intro c hc
  simp only [SetUp, List.mem_append, List.mem_cons, List.not_mem_nil, or_false] at hc
  rcases hc with (((((rfl | rfl | rfl) | hc) | hc) | rfl) | hc)
  · trivial
  · trivial
  · trivial
  · split at hc <;> simp at hc; subst hc; trivial
  · split at hc <;> simp at hc; subst hc; trivial
  · trivial
  · split at hc <;> simp at hc; subst hc; trivial

/-- A round is the set-up, and what is done with the context if it has worked. -/
theorem iter_parts {o : Opts} {tid i f : Nat} {t : List Ev} {e : End Unit} (h : Can (iteration o tid i f) t e) :
    (LastBad (SetUp o) t ∧ e = .exit 1) ∨
    ∃ tc tu, t = tc ++ tu ∧ AllOk (SetUp o) tc ∧ Can (use o tid i f) tu e := by
  rcases can_bind _ _ _ _ h with ⟨_, tc, tu, rfl, h1, h⟩ | ⟨x, hx, h1⟩
  · rcases runs_configure o _ _ h1 with ⟨h2, _⟩ | ⟨_, h2⟩
    · exact .inr ⟨tc, tu, rfl, h2, h⟩
    · cases h2
  · rcases runs_configure o _ _ h1 with ⟨_, h2⟩ | ⟨h2, h3⟩
    · subst h2; simp [End.stops] at hx
    · subst h3
      simp only [End.stops, Option.some.injEq] at hx
      exact .inl ⟨h2, hx.symm⟩

theorem allok_ofSetUp {o : Opts} {t : List Ev} (h : AllOk (SetUp o) t) : ∀ x ∈ t, OfSetUp x.call := by
  intro x hx
  refine setup_ofSetUp o _ ?_
  rw [← h.1]
  exact List.mem_map_of_mem hx

theorem lastbad_ofSetUp {o : Opts} {t : List Ev} (h : LastBad (SetUp o) t) : ∀ x ∈ t, OfSetUp x.call := by
  intro x hx
  obtain ⟨t', y, r, rfl, hr, _, _⟩ := h
  refine setup_ofSetUp o _ ?_
  rw [hr]
  exact List.mem_append.2 (.inl (List.mem_map_of_mem hx))

end Verif.SampleCli
