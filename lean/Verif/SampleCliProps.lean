import Verif.SampleCliSafe
import Verif.ClientRespProps

/-!
# C130: what the sample client does

`Can (iteration o tid i f) t e` says that a thread of the sample client with the
command line `o` can, in its round number `i`, make the calls of `t` and get the
answers of `t`, and that the round then ends with `e`.  Nothing is assumed of the
answers unless a theorem says so.
-/
namespace Verif.SampleCli
open Verif.ClientResp (decimal)

/-! ## Set-up and end of a context -/

theorem use_inner (o : Opts) (tid i f : Nat) : Only (fun c => ¬ OfSetUp c) (use o tid i f) := by
  refine only_bind _ _ _ (only_mono ?_ _ (only_ca o tid i)) fun s => only_bind _ _ _ (only_mono ?_ _ (only_enrollPart o tid i f s))
    fun s => only_bind _ _ _ (only_mono ?_ _ (only_reenrollPart o tid i s)) fun s => only_mono ?_ _ (only_finish s)
  · intro c hc
    rcases hc with rfl | rfl | ⟨n, rfl⟩ | ⟨n, rfl⟩ | ⟨n, b, rfl⟩ <;> simp [OfSetUp]
  · intro c hc
    cases c <;> simp_all [OfSetUp, OfEnrol, OfFetch, IsEnrol, IsWait]
  · intro c hc
    cases c <;> simp_all [OfSetUp, OfReenrol, IsWait]
  · intro c hc
    rcases hc with ⟨n, b, rfl⟩ | rfl <;> simp [OfSetUp]

theorem stops_not_exit {α : Type} {p : Prog α} (hp : ∀ t n, ¬ Can p t (.exit n)) {β : Type} {f : α → Prog β}
    (hf : ∀ a t n, ¬ Can (f a) t (.exit n)) : ∀ t n, ¬ Can (p.bind f) t (.exit n) := by
  intro t n h
  rcases can_bind _ _ _ _ h with ⟨a, _, t2, _, _, h2⟩ | ⟨x, hx, h2⟩
  · exact hf a t2 n h2
  · have := stops_exit hx
    subst this
    exact hp t n h2

/-- A program without `exit`. -/
def NoExit {α : Type} : Prog α → Prop
  | .exit _ => False
  | .ask _ k => ∀ a, NoExit (k a)
  | _ => True

theorem noExit_can {α : Type} : ∀ (p : Prog α) (t : List Ev) (n : Nat), NoExit p → ¬ Can p t (.exit n) := by
  intro p
  induction p with
  | ret a => intro t n _ h; simp [Can] at h
  | exit m => intro t n h; exact absurd h id
  | ub => intro t n _ h; simp [Can] at h
  | busy => intro t n _ h; simp [Can] at h
  | ask c k ih => intro t n hp h; obtain ⟨a, t', _, h⟩ := h; exact ih a t' n (hp a) h

theorem noExit_bind {α β : Type} : ∀ (p : Prog α) (f : α → Prog β), NoExit p → (∀ a, NoExit (f a)) → NoExit (p.bind f) := by
  intro p f
  induction p with
  | ret a => intro _ h; exact h a
  | exit m => intro h; exact absurd h id
  | ub => intro _ _; trivial
  | busy => intro _ _; trivial
  | ask c k ih => intro hp h a; exact ih a (hp a) h

theorem noExit_saveCert (o : Opts) (n : List Nat) (b : Buf) : NoExit (saveCert o n b) := by
  unfold saveCert
  split
  · intro a; bsplit
    · intro _; trivial
    · trivial
  · intro _; trivial

theorem noExit_copyInto {α : Type} (c : Call) (n : Nat) (k : EstErr → Buf → Prog α) (h : ∀ e b, NoExit (k e b)) :
    NoExit (copyInto c n k) := by
  intro a
  bsplit
  · exact h _ _
  · bsplit
    · trivial
    · exact h _ _

theorem noExit_fetchCert (o : Opts) (tid i n : Nat) : NoExit (fetchCert o tid i n) := by
  intro m
  bsplit
  · trivial
  · exact noExit_copyInto _ _ _ fun e b => noExit_bind _ _ (noExit_saveCert _ _ _) fun _ => trivial

theorem noExit_fetch (o : Opts) (tid i : Nat) (b : Ans) : NoExit (fetch o tid i b) := by
  unfold fetch
  split
  · trivial
  · split
    · intro m
      bsplit
      · trivial
      · exact noExit_copyInto _ _ _ fun e b => noExit_bind _ _ (fun _ => trivial) fun _ => noExit_fetchCert _ _ _ _
    · exact noExit_fetchCert _ _ _ _

theorem noExit_simple (o : Opts) (tid i : Nat) : NoExit (simpleAttempt o tid i) := by
  have h : NoExit (simpleGo o tid i) := by
    unfold simpleGo
    split
    · intro r
      bsplit
      · trivial
      · intro b _; exact noExit_fetch _ _ _ _
    · intro b; exact noExit_fetch _ _ _ _
  unfold simpleAttempt
  split
  · intro a
    bsplit
    · trivial
    · exact h
  · exact h

theorem noExit_loop : ∀ (f n : Nat), NoExit (attrLoop f n)
  | 0, 0 => trivial
  | _ + 1, 0 => trivial
  | 0, _ + 1 => trivial
  | f + 1, n + 1 => by
    intro a
    bsplit
    · exact noExit_loop _ _
    · bsplit
      · intro _; exact noExit_loop _ _
      · bsplit
        · intro _; exact noExit_loop _ _
        · bsplit
          · exact noExit_loop _ _
          · intro _; exact noExit_loop _ _

theorem noExit_regular (o : Opts) (tid i f : Nat) : NoExit (regularAttempt o tid i f) := by
  intro g
  bsplit
  · trivial
  · intro r
    bsplit
    · trivial
    · intro p
      bsplit
      · trivial
      · intro d
        bsplit
        · trivial
        · exact noExit_bind _ _ (noExit_loop _ _) fun _ b => noExit_fetch _ _ _ _

theorem noExit_again {α : Type} (rc : α → EstErr) (p : Prog α) (hp : NoExit p) : NoExit (again rc p) := by
  refine noExit_bind _ _ hp fun a => ?_
  bsplit
  · intro r
    refine noExit_bind _ _ ?_ fun _ => hp
    bsplit
    · unfold delay
      split
      · intro _; trivial
      · split
        · intro n
          bsplit
          · trivial
          · bsplit
            · intro _; trivial
            · trivial
        · trivial
    · trivial
  · trivial

theorem noExit_use (o : Opts) (tid i f : Nat) : NoExit (use o tid i f) := by
  refine noExit_bind _ _ ?_ fun s => noExit_bind _ _ ?_ fun s => noExit_bind _ _ ?_ fun s => ?_
  · unfold caPart
    split
    · intro g
      bsplit
      · trivial
      · intro m
        bsplit
        · trivial
        · exact noExit_copyInto _ _ _ fun e b => noExit_bind _ _ (noExit_saveCert _ _ _) fun _ => trivial
    · trivial
  · unfold enrollPart
    split
    · exact noExit_bind _ _ (noExit_again _ _ (noExit_regular _ _ _ _)) fun _ => trivial
    · split
      · exact noExit_bind _ _ (noExit_again _ _ (noExit_simple _ _ _)) fun _ => trivial
      · split
        · refine noExit_bind _ _ ?_ fun _ => trivial
          intro g
          bsplit
          · trivial
          · intro _; trivial
        · trivial
  · unfold reenrollPart
    split
    · refine noExit_bind _ _ (noExit_again _ _ (fun _ => trivial)) fun a => ?_
      bsplit
      · trivial
      · intro m
        bsplit
        · trivial
        · exact noExit_copyInto _ _ _ fun e b => noExit_bind _ _ (noExit_saveCert _ _ _) fun _ => trivial
    · trivial
  · unfold finish
    split
    · intro _ _; trivial
    · intro _; trivial

/-- Set-up: a round makes the calls that set up a context, with the values of the
command line and in a fixed order.  If one of them fails the process is left with 1 at
once.  If all have worked, none of them is made again, and the process is not left. -/
theorem C130_set_up (o : Opts) (tid i f : Nat) (t : List Ev) (e : End Unit) (h : Can (iteration o tid i f) t e) :
    (LastBad (SetUp o) t ∧ e = .exit 1) ∨
    (∃ tc tu, t = tc ++ tu ∧ AllOk (SetUp o) tc ∧ (∀ x ∈ tu, ¬ OfSetUp x.call) ∧ ∀ n, e ≠ .exit n) := by
  rcases iter_parts h with h | ⟨tc, tu, rfl, h1, h2⟩
  · exact .inl h
  · refine .inr ⟨tc, tu, rfl, h1, only_can _ _ _ _ (use_inner _ _ _ _) h2, ?_⟩
    rintro n rfl
    exact noExit_can _ _ _ (noExit_use _ _ _ _) h2

/-- The options for a proxy, a token and nothing else to do; all answers good. -/
example : Can (iteration { tokenMode := true, token := [97], server := [104], proxy := some ⟨[112], 80, 1, 0, none, none⟩ } 0 0 0)
    (([.init, .readTimeout 10, .setAuth [] [] false false, .setCredCb, .setServer [104] 0 none,
      .setProxy ⟨[112], 80, 1, 0, none, none⟩, .destroy] : List Call).map fun c => ⟨c, {}⟩) (.ret ()) :=
  can_play _ (List.replicate 7 {}) _ _ (by decide +kernel)

/-- The server cannot be set. -/
example : Can (iteration { enroll := true } 0 0 0)
    [⟨.init, {}⟩, ⟨.readTimeout 10, {}⟩, ⟨.setAuth [] [] false false, {}⟩, ⟨.setServer [] 0 none, { rc := .invalidServerName }⟩]
    (.exit 1) :=
  can_play _ [{}, {}, {}, { rc := .invalidServerName }] _ _ (by decide +kernel)

/-- End of a context: a round that comes to its end makes one context, first of all, and
destroys it, last of all. -/
theorem C130_context (o : Opts) (tid i f : Nat) (t : List Ev) (h : Can (iteration o tid i f) t (.ret ())) :
    ∃ (a d : Ans) (mid : List Ev), t = ⟨.init, a⟩ :: (mid ++ [⟨.destroy, d⟩]) ∧ a.ptr = true ∧
      ∀ x ∈ mid, x.call ≠ .init ∧ x.call ≠ .destroy := by
  rcases iter_parts h with ⟨_, h⟩ | ⟨tc, tu, rfl, ⟨hm, hw⟩, h2⟩
  · cases h
  · obtain ⟨ta, te, tr, tf, rfl, ⟨xa, ha⟩, he, hr, hf⟩ := use_parts h2
    cases tc with
    | nil => simp [SetUp] at hm
    | cons x tc =>
      have hx : x.call = .init := by simp [SetUp] at hm; exact hm.1
      obtain ⟨a, rfl⟩ : ∃ a, x = ⟨.init, a⟩ := ⟨x.ans, by rw [← hx]⟩
      have htc : ∀ y ∈ tc, y.call ≠ .init ∧ y.call ≠ .destroy := by
        intro y hy
        have : y.call ∈ (SetUp o).tail := by
          rw [← hm]; simp only [List.map_cons, List.tail_cons]; exact List.mem_map_of_mem hy
        simp only [SetUp, List.cons_append, List.tail_cons, List.nil_append, List.mem_append, List.mem_cons] at this
        constructor
        · intro hc; rw [hc] at this
          rcases this with h | h | h
          · cases h
          · cases h
          · rcases h with ((h | h) | h) | h
            all_goals (try split at h) <;> simp at h
        · intro hc; rw [hc] at this
          rcases this with h | h | h
          · cases h
          · cases h
          · rcases h with ((h | h) | h) | h
            all_goals (try split at h) <;> simp at h
      have hta : ∀ y ∈ ta, y.call ≠ .init ∧ y.call ≠ .destroy := by
        intro y hy
        rcases only_can _ _ _ _ (only_ca _ _ _) ha y hy with h | h | ⟨n, h⟩ | ⟨n, h⟩ | ⟨n, b, h⟩ <;> simp [h]
      have hte : ∀ y ∈ te, y.call ≠ .init ∧ y.call ≠ .destroy := by
        intro y hy
        rcases he with rfl | ⟨s, x, he, _⟩
        · simp at hy
        · have := only_can _ _ _ _ (only_enrollPart _ _ _ _ _) he y hy
          cases hc : y.call <;> simp_all [OfEnrol, OfFetch, IsEnrol, IsWait]
      have htr : ∀ y ∈ tr, y.call ≠ .init ∧ y.call ≠ .destroy := by
        intro y hy
        rcases hr with rfl | ⟨s, x, hr, _⟩
        · simp at hy
        · have := only_can _ _ _ _ (only_reenrollPart _ _ _ _) hr y hy
          cases hc : y.call <;> simp_all [OfReenrol, IsWait]
      have hall : ∀ y ∈ tc ++ (ta ++ (te ++ tr)), y.call ≠ .init ∧ y.call ≠ .destroy := by
        intro y hy
        simp only [List.mem_append] at hy
        rcases hy with hy | hy | hy | hy
        · exact htc y hy
        · exact hta y hy
        · exact hte y hy
        · exact htr y hy
      have hp : a.ptr = true := by
        have := hw ⟨.init, a⟩ (by simp)
        simpa [Worked] using this
      rcases hf with ⟨_, hf⟩ | ⟨s, hf⟩
      · exact absurd rfl hf
      · rcases (can_finish hf).2 with ⟨_, d, rfl⟩ | ⟨_, b, d, rfl⟩
        · exact ⟨a, d, tc ++ (ta ++ (te ++ tr)), by simp, hp, hall⟩
        · refine ⟨a, d, tc ++ (ta ++ (te ++ tr)) ++ [⟨.failed s.op s.rv, b⟩], by simp, hp, ?_⟩
          intro y hy
          rcases List.mem_append.1 hy with hy | hy
          · exact hall y hy
          · simp only [List.mem_singleton] at hy; subst hy; simp

/-- A round that gets CA certificates, in vain. -/
example : Can (iteration { getcert := true, outDir := [111] } 0 0 0)
    [⟨.init, {}⟩, ⟨.readTimeout 10, {}⟩, ⟨.setAuth [] [] false false, {}⟩, ⟨.setServer [] 0 none, {}⟩,
      ⟨.getCacerts, { rc := .sslConnect }⟩, ⟨.failed 1 .sslConnect, {}⟩, ⟨.destroy, {}⟩] (.ret ()) :=
  can_play _ [{}, {}, {}, {}, { rc := .sslConnect }, {}, {}] _ _ (by decide +kernel)

/-- Other ends: a round does something undefined only if there was no memory or the
library has copied more than it had announced; it goes round a loop only in a regular
enrolment. -/
theorem C130_other_ends (o : Opts) (tid i f : Nat) (t : List Ev) (e : End Unit) (h : Can (iteration o tid i f) t e) :
    (e = .ub → OutOfBounds t) ∧ (e = .busy → o.getcsr = true ∧ (o.enroll = true ∨ o.keygen = true)) :=
  (iter_fine h).2.2

/-- No memory for the CA certificates. -/
example : Can (iteration { getcert := true, outDir := [111] } 0 0 0)
    [⟨.init, {}⟩, ⟨.readTimeout 10, {}⟩, ⟨.setAuth [] [] false false, {}⟩, ⟨.setServer [] 0 none, {}⟩,
      ⟨.getCacerts, { len := 3 }⟩, ⟨.alloc 3, { ptr := false }⟩] .ub :=
  can_play _ [{}, {}, {}, {}, { len := 3 }, { ptr := false }] _ _ (by decide +kernel)

/-- Attributes that do not get shorter, for three rounds. -/
example : (play (iteration { enroll := true, getcsr := true, outDir := [111] } 0 0 3)
    [{}, {}, {}, {}, {}, {}, {}, { len := 4 }, { len := 4 }, { len := 4 }, { len := 4 }]).map (·.2) = some .busy := by
  decide +kernel

/-! ## Requests -/

/-- Requests: only what the command line asks for is requested, with its values. -/
theorem C130_wanted (o : Opts) (tid i f : Nat) (t : List Ev) (e : End Unit) (h : Can (iteration o tid i f) t e) :
    ∀ x ∈ t, Wanted o x.call := by
  intro x hx
  obtain ⟨a, b, rfl⟩ := List.append_of_mem hx
  exact ((iter_fine h).1 a x b rfl).2

/-- The answers in an enrolment with a key from the server that works. -/
def exKey : List Ans :=
  [{}, {}, {}, {}, { len := 2, klen := 3 }, {}, { data := [7, 8, 9] }, {}, {}, { data := [1, 2] }, {}, {}]

/-- The calls in it. -/
def exKeyCalls : List Call :=
  [.init, .readTimeout 10, .setAuth [] [] false false, .setServer [] 0 none, .keygenEnroll [49, 50, 55, 46, 48, 46, 48, 46, 49],
   .alloc 3, .copyKey, .write [111, 47, 107, 101, 121, 45, 52, 45, 57, 46, 107, 101, 121] ⟨[7, 8, 9], 0⟩, .alloc 2, .copyCert,
   .write [111, 47, 99, 101, 114, 116, 45, 52, 45, 57, 46, 112, 107, 99, 115, 55] ⟨[1, 2], 0⟩, .destroy]

theorem exKey_can : Can (iteration { keygen := true, outDir := [111] } 4 9 0)
    ((exKeyCalls.zip exKey).map fun p => ⟨p.1, p.2⟩) (.ret ()) :=
  can_play _ exKey _ _ (by decide +kernel)

example : (⟨.keygenEnroll [49, 50, 55, 46, 48, 46, 48, 46, 49], { len := 2, klen := 3 }⟩ : Ev) ∈
    (exKeyCalls.zip exKey).map (fun p => (⟨p.1, p.2⟩ : Ev)) := by decide +kernel

/-- The talk with the server about enrolment: there is at most one request, unless the
server puts it off; then the client asks the library when to come back, waits as the
library says, and there is at most one more request.  The same for re-enrolment. -/
theorem C130_talk (o : Opts) (tid i f : Nat) (t : List Ev) (e : End Unit) (h : Can (iteration o tid i f) t e) (hs : Sane t) :
    ∃ l1 l2, t.filter (fun x => decide (IsTalk x.call)) = l1 ++ l2 ∧ Talked IsEnrol (e ≠ .ret ()) l1 ∧
      Talked (· = .reenroll) (e ≠ .ret ()) l2 := by
  rcases iter_parts h with ⟨h1, rfl⟩ | ⟨tc, tu, rfl, h1, h2⟩
  · rw [filter_only (lastbad_ofSetUp h1) (fun _ => setup_not_talk)]
    exact ⟨[], [], rfl, talked_nil, talked_nil⟩
  · obtain ⟨ta, te, tr, tf, rfl, ⟨xa, ha⟩, he, hr, hf⟩ := use_parts h2
    rw [List.filter_append, filter_only (allok_ofSetUp h1) (fun _ => setup_not_talk), List.nil_append, List.filter_append,
      filter_only (only_can _ _ _ _ (only_ca _ _ _) ha) (fun _ => ca_not_talk), List.nil_append, List.filter_append,
      List.filter_append]
    have htf : tf.filter (fun x => decide (IsTalk x.call)) = [] := by
      rcases hf with ⟨rfl, _⟩ | ⟨s, hf⟩
      · rfl
      · refine filter_only (only_can _ _ _ _ (only_finish s) hf) ?_
        rintro c (⟨n, e, rfl⟩ | rfl) <;> simp [IsTalk, IsEnrol, IsWait]
    rw [htf, List.append_nil]
    have hs' := sane_right (sane_right hs)
    refine ⟨_, _, rfl, ?_, ?_⟩
    · rcases he with rfl | ⟨s, x, he, hx⟩
      · exact talked_nil
      · refine talked_stop (talk_enrollPart he (sane_left hs')) ?_
        intro hn hr
        obtain ⟨a, rfl⟩ := hx hr
        exact hn a rfl
    · rcases hr with rfl | ⟨s, x, hr, hx⟩
      · exact talked_nil
      · refine talked_stop (talk_reenrollPart hr (sane_left (sane_right hs'))) ?_
        intro hn hr
        obtain ⟨a, rfl⟩ := hx hr
        exact hn a rfl

/-- A request that is put off for 60 seconds, and works then. -/
def exRetry : List Ans :=
  [{}, {}, {}, {}, { rc := .caEnrollRetry }, { delay := 60 }, {}, { len := 2 }, {}, { data := [1, 2] }, {}, {}]

/-- The calls in it. -/
def exRetryCalls : List Call :=
  [.init, .readTimeout 10, .setAuth [] [] false false, .setServer [] 0 none, .enroll [49, 50, 55, 46, 48, 46, 48, 46, 49],
   .copyRetry, .sleep 60, .enroll [49, 50, 55, 46, 48, 46, 48, 46, 49], .alloc 2, .copyCert, .write [111, 47, 99, 101, 114, 116, 45, 48, 45, 48, 46, 112, 107, 99, 115, 55] ⟨[1, 2], 0⟩, .destroy]

theorem exRetry_can : Can (iteration { enroll := true, outDir := [111] } 0 0 0)
    ((exRetryCalls.zip exRetry).map fun p => ⟨p.1, p.2⟩) (.ret ()) :=
  can_play _ exRetry _ _ (by decide +kernel)

example : Sane ((exRetryCalls.zip exRetry).map fun p => ⟨p.1, p.2⟩) := by
  unfold Sane
  decide +kernel

example : ((exRetryCalls.zip exRetry).map (fun p => (⟨p.1, p.2⟩ : Ev))).filter (fun x => decide (IsTalk x.call)) =
    [⟨.enroll [49, 50, 55, 46, 48, 46, 48, 46, 49], { rc := .caEnrollRetry }⟩, ⟨.copyRetry, { delay := 60 }⟩, ⟨.sleep 60, {}⟩,
     ⟨.enroll [49, 50, 55, 46, 48, 46, 48, 46, 49], { len := 2 }⟩] := by decide +kernel

theorem talked_count {S : Call → Prop} [DecidablePred S] {p : Prop} {l : List Ev} (h : Talked S p l) (hw : ∀ c, IsWait c → ¬ S c) :
    l.countP (fun x => decide (S x.call)) ≤ 2 := by
  rcases h with ⟨⟨h, _⟩, _⟩ | ⟨q1, q2, w, r, rfl, ⟨h1, _⟩, ⟨h2, _⟩, _, hr⟩
  · exact Nat.le_trans List.countP_le_length (by omega)
  · have hwc : w.countP (fun x => decide (S x.call)) = 0 := by
      rw [List.countP_eq_zero]
      intro x hx
      have : IsWait x.call := by
        unfold WaitsFor at hr
        split at hr
        · subst hr; simp at hx
        · split at hr
          · have : x.call ∈ w.map Ev.call := List.mem_map_of_mem hx
            rw [hr] at this
            simp only [List.mem_singleton] at this
            rw [this]; trivial
          · split at hr
            · obtain ⟨n, hr⟩ := hr
              split at hr
              · obtain ⟨a, rfl⟩ := hr
                simp only [List.mem_cons, List.not_mem_nil, or_false] at hx
                rcases hx with rfl | rfl <;> trivial
              · subst hr
                simp only [List.mem_singleton] at hx
                subst hx; trivial
            · subst hr; simp at hx
      simpa using hw _ this
    have hc : ¬ S .copyRetry := hw _ trivial
    have a1 := Nat.le_trans (List.countP_le_length (p := fun x : Ev => decide (S x.call)) (l := q1)) h1
    have a2 := Nat.le_trans (List.countP_le_length (p := fun x : Ev => decide (S x.call)) (l := q2)) h2
    rw [List.countP_append, List.countP_cons, List.countP_append, hwc]
    simp only [hc, decide_false, Bool.false_eq_true, if_false]
    omega

theorem talked_none {S T : Call → Prop} [DecidablePred T] {p : Prop} {l : List Ev} (h : Talked S p l)
    (hst : ∀ c, S c → ¬ T c) (hw : ∀ c, IsWait c → ¬ T c) : l.countP (fun x => decide (T x.call)) = 0 := by
  rw [List.countP_eq_zero]
  intro x hx
  rcases h with ⟨⟨_, h⟩, _⟩ | ⟨q1, q2, w, r, rfl, ⟨_, h1⟩, ⟨_, h2⟩, _, hr⟩
  · simpa using hst _ (h x hx)
  · simp only [List.mem_append, List.mem_cons] at hx
    rcases hx with hx | rfl | hx | hx
    · simpa using hst _ (h1 x hx)
    · simpa using hw .copyRetry trivial
    · have : IsWait x.call := by
        unfold WaitsFor at hr
        split at hr
        · subst hr; simp at hx
        · split at hr
          · have : x.call ∈ w.map Ev.call := List.mem_map_of_mem hx
            rw [hr] at this
            simp only [List.mem_singleton] at this
            rw [this]; trivial
          · split at hr
            · obtain ⟨n, hr⟩ := hr
              split at hr
              · obtain ⟨a, rfl⟩ := hr
                simp only [List.mem_cons, List.not_mem_nil, or_false] at hx
                rcases hx with rfl | rfl <;> trivial
              · subst hr
                simp only [List.mem_singleton] at hx
                subst hx; trivial
            · subst hr; simp at hx
      simpa using hw _ this
    · simpa using hst _ (h2 x hx)

theorem count_talk {T : Call → Prop} [DecidablePred T] (hT : ∀ c, T c → IsTalk c) (t : List Ev) :
    t.countP (fun x => decide (T x.call)) =
    (t.filter (fun x => decide (IsTalk x.call))).countP (fun x => decide (T x.call)) := by
  rw [List.countP_filter]
  apply List.countP_congr
  intro x _
  by_cases h : T x.call
  · simp [h, hT _ h]
  · simp [h]

/-- At most two requests for an enrolment and two for a re-enrolment in a round. -/
theorem C130_at_most_twice (o : Opts) (tid i f : Nat) (t : List Ev) (e : End Unit) (h : Can (iteration o tid i f) t e) (hs : Sane t) :
    t.countP (fun x => decide (IsEnrol x.call)) ≤ 2 ∧ t.countP (fun x => decide (x.call = .reenroll)) ≤ 2 := by
  obtain ⟨l1, l2, h1, h2, h3⟩ := C130_talk o tid i f t e h hs
  rw [count_talk (T := IsEnrol) (fun c hc => .inl hc), count_talk (T := (· = .reenroll)) (fun c hc => .inr (.inl hc)), h1,
    List.countP_append, List.countP_append,
    talked_none (T := IsEnrol) h3 (by rintro c rfl; simp [IsEnrol]) (by intro c hc; cases c <;> simp_all [IsWait, IsEnrol]),
    talked_none (T := (· = .reenroll)) h2 (by intro c hc; cases c <;> simp_all [IsEnrol]) (by intro c hc; cases c <;> simp_all [IsWait])]
  have a1 := talked_count h2 (by intro c hc; cases c <;> simp_all [IsWait, IsEnrol])
  have a2 := talked_count h3 (by intro c hc; cases c <;> simp_all [IsWait])
  constructor
  · simpa using a1
  · simpa using a2

example : ((exRetryCalls.zip exRetry).map (fun p => (⟨p.1, p.2⟩ : Ev))).countP (fun x => decide (IsEnrol x.call)) = 2 := by
  decide +kernel

/-- That the client waits until the time the server names is false: a time more than two
minutes away leads to a message that the client terminates, and to the second request at
once. -/
theorem C130_waits_false :
    ∃ t : List Ev, Can (iteration { enroll := true, outDir := [111] } 0 0 0) t (.ret ()) ∧ Sane t ∧
      t.map Ev.call = [.init, .readTimeout 10, .setAuth [] [] false false, .setServer [] 0 none, .enroll [49, 50, 55, 46, 48, 46, 48, 46, 49],
        .copyRetry, .now, .enroll [49, 50, 55, 46, 48, 46, 48, 46, 49], .failed 4 .caEnrollRetry, .destroy] ∧
      (⟨.copyRetry, { time := 5000 }⟩ : Ev) ∈ t ∧ (⟨.now, { time := 1000 }⟩ : Ev) ∈ t := by
  refine ⟨[⟨.init, {}⟩, ⟨.readTimeout 10, {}⟩, ⟨.setAuth [] [] false false, {}⟩, ⟨.setServer [] 0 none, {}⟩,
    ⟨.enroll [49, 50, 55, 46, 48, 46, 48, 46, 49], { rc := .caEnrollRetry }⟩, ⟨.copyRetry, { time := 5000 }⟩, ⟨.now, { time := 1000 }⟩,
    ⟨.enroll [49, 50, 55, 46, 48, 46, 48, 46, 49], { rc := .caEnrollRetry }⟩, ⟨.failed 4 .caEnrollRetry, {}⟩, ⟨.destroy, {}⟩],
    can_play _ [{}, {}, {}, {}, { rc := .caEnrollRetry }, { time := 5000 }, { time := 1000 }, { rc := .caEnrollRetry }, {}, {}] _ _
      (by decide +kernel), by unfold Sane; decide +kernel, by decide +kernel, by decide +kernel, by decide +kernel⟩

/-- Proof of possession: with `-z`, a simple enrolment without a CSR of one's own comes
after the library was told to do it, and that has worked. -/
theorem C130_pop_partial (o : Opts) (tid i f : Nat) (t : List Ev) (e : End Unit) (h : Can (iteration o tid i f) t e)
    (ho : o.forcePop = true) (a b : List Ev) (x : Ev) (cn : List Nat) (ht : t = a ++ x :: b)
    (hx : x.call = .enroll cn ∨ x.call = .keygenEnroll cn) : ∃ g ∈ a, g.call = .forcePop ∧ g.ans.rc = .none := by
  have := ((iter_fine h).1 a x b ht).1
  unfold Order at this
  rcases hx with hx | hx
  · rw [hx] at this; exact this ho
  · rw [hx] at this; exact this ho

example : (play (iteration { enroll := true, forcePop := true, outDir := [111] } 0 0 0)
    [{}, {}, {}, {}, {}, { rc := .sslConnect }, {}, {}]).map (·.1.map Ev.call) =
    some [.init, .readTimeout 10, .setAuth [] [] false false, .setServer [] 0 none, .forcePop, .enroll [49, 50, 55, 46, 48, 46, 48, 46, 49],
      .failed 4 .sslConnect, .destroy] := by decide +kernel

/-- That `-z` is obeyed is false when attributes are fetched first (`-a`): the library is
never told. -/
theorem C130_pop_false (o : Opts) (tid i f : Nat) (t : List Ev) (e : End Unit) (h : Can (iteration o tid i f) t e)
    (hc : o.getcsr = true) : ∀ x ∈ t, x.call ≠ .forcePop := by
  intro x hx hh
  have := C130_wanted o tid i f t e h x hx
  rw [hh] at this
  simp [Wanted, hc] at this

/-- A regular enrolment of a device that is to be called `d`: the options `-z` and
`--common-name` have no effect. -/
theorem C130_common_name_false :
    (play (iteration { enroll := true, getcsr := true, forcePop := true, cn := [100], outDir := [111] } 0 0 9)
      [{}, {}, {}, {}, {}, {}, {}, {}, { rc := .sslConnect }, {}, {}]).map (·.1.map Ev.call) =
    some [.init, .readTimeout 10, .setAuth [] [] false false, .setServer [] 0 none, .getAttrs, .newReq,
      .populate [69, 83, 84, 45, 99, 108, 105, 101, 110, 116], .decodeAttrs, .enrollCsr true, .failed 2 .sslConnect, .destroy] := by decide +kernel

/-! ## Files -/

/-- Files: each file that is written has the attributes, or the key, the certificate or
the CA certificates of a request that has worked, as far as they were copied. -/
theorem C130_files_partial (o : Opts) (tid i f : Nat) (t : List Ev) (e : End Unit) (h : Can (iteration o tid i f) t e)
    (a b : List Ev) (n : List Nat) (c : Buf) (r : Ans) (ht : t = a ++ ⟨.write n c, r⟩ :: b) : FileOk o tid i a n c :=
  ((iter_fine h).1 a _ b ht).1

example : (exKeyCalls.zip exKey).map (fun p => (⟨p.1, p.2⟩ : Ev)) =
    ((exKeyCalls.zip exKey).take 10).map (fun p => (⟨p.1, p.2⟩ : Ev)) ++
      ⟨.write [111, 47, 99, 101, 114, 116, 45, 52, 45, 57, 46, 112, 107, 99, 115, 55] ⟨[1, 2], 0⟩, {}⟩ :: [⟨.destroy, {}⟩] := by decide +kernel

/-- That a file has only what came from the library is false: if the copy fails, a buffer
that nothing was written into is stored. -/
theorem C130_files_false :
    (play (iteration { enroll := true, outDir := [111] } 0 0 0)
      [{}, {}, {}, {}, { len := 5 }, {}, { rc := .noCertificate }, {}, {}, {}]).map (·.1.map Ev.call) =
    some [.init, .readTimeout 10, .setAuth [] [] false false, .setServer [] 0 none, .enroll [49, 50, 55, 46, 48, 46, 48, 46, 49],
      .alloc 5, .copyCert, .write [111, 47, 99, 101, 114, 116, 45, 48, 45, 48, 46, 112, 107, 99, 115, 55] ⟨[], 5⟩, .failed 4 .noCertificate, .destroy] := by decide +kernel

theorem split_at {c : Nat} : ∀ {a b x y : List Nat}, c ∉ a → c ∉ b → a ++ c :: x = b ++ c :: y → a = b ∧ x = y
  | [], [], x, y, _, _, h => by simpa using h
  | [], d :: b, x, y, _, hb, h => by
    simp only [List.nil_append, List.cons_append, List.cons.injEq] at h
    exact absurd (by rw [h.1]; simp) hb
  | d :: a, [], x, y, ha, _, h => by
    simp only [List.nil_append, List.cons_append, List.cons.injEq] at h
    exact absurd (by rw [h.1]; simp) ha
  | d :: a, f :: b, x, y, ha, hb, h => by
    simp only [List.cons_append, List.cons.injEq] at h
    have := split_at (fun hh => ha (by simp [hh])) (fun hh => hb (by simp [hh])) h.2
    exact ⟨by rw [h.1, this.1], this.2⟩

theorem not_mem_decimal {c : Nat} (hc : c < 48) (n : Nat) : c ∉ decimal n := by
  intro h
  have := ClientResp.decimal_digits n c h
  omega

theorem decimal_inj {a b : Nat} (h : decimal a = decimal b) : a = b := by
  rw [← ClientResp.numVal_decimal a, ← ClientResp.numVal_decimal b, h]

/-- Names of files: as long as the names are not cut, files of different kinds, threads or
rounds have different names. -/
theorem C130_names_partial (o : Opts) (k1 k2 x1 x2 : List Nat) (t1 t2 i1 i2 : Nat)
    (hk1 : k1 = [99, 97, 99, 101, 114, 116] ∨ k1 = [99, 101, 114, 116] ∨ k1 = [107, 101, 121]) (hk2 : k2 = [99, 97, 99, 101, 114, 116] ∨ k2 = [99, 101, 114, 116] ∨ k2 = [107, 101, 121])
    (hl1 : o.outDir.length + k1.length + (decimal t1).length + (decimal i1).length + x1.length ≤ 250)
    (hl2 : o.outDir.length + k2.length + (decimal t2).length + (decimal i2).length + x2.length ≤ 250)
    (h : FileName o k1 t1 i1 (46 :: x1) = FileName o k2 t2 i2 (46 :: x2)) : k1 = k2 ∧ t1 = t2 ∧ i1 = i2 ∧ x1 = x2 := by
  have nc : ∀ {k : List Nat}, k = [99, 97, 99, 101, 114, 116] ∨ k = [99, 101, 114, 116] ∨ k = [107, 101, 121] → 45 ∉ k := by
    rintro k (rfl | rfl | rfl) <;> decide
  unfold FileName at h
  rw [List.take_of_length_le (by simp; omega), List.take_of_length_le (by simp; omega), List.take_of_length_le (by simp; omega),
    List.take_of_length_le (by simp; omega)] at h
  simp only [List.append_assoc, List.cons_append, List.append_cancel_left_eq, List.cons.injEq, true_and] at h
  obtain ⟨h0, g⟩ := split_at (nc hk1) (nc hk2) h
  obtain ⟨h1, g'⟩ := split_at (not_mem_decimal (c := 45) (by decide) t1) (not_mem_decimal (by decide) t2) g
  obtain ⟨h2, g''⟩ := split_at (not_mem_decimal (c := 46) (by decide) i1) (not_mem_decimal (by decide) i2) g'
  exact ⟨h0, decimal_inj h1, decimal_inj h2, g''⟩

example : FileName { outDir := [111, 117, 116] } [99, 101, 114, 116] 3 12 [46, 112, 101, 109] = [111, 117, 116, 47, 99, 101, 114, 116, 45, 51, 45, 49, 50, 46, 112, 101, 109] := by decide +kernel

/-- That the names differ is false for a directory with a long name, which the command
line accepts: the certificate is stored over the key. -/
theorem C130_names_false (o : Opts) (k1 k2 x1 x2 : List Nat) (t1 t2 i1 i2 : Nat) (h : 254 ≤ o.outDir.length) :
    FileName o k1 t1 i1 x1 = FileName o k2 t2 i2 x2 := by
  have : ∀ (k x : List Nat) (t i : Nat), FileName o k t i x = o.outDir.take 254 := by
    intro k x t i
    have e : (o.outDir ++ 47 :: k ++ 45 :: decimal t ++ 45 :: decimal i).take 254 = o.outDir.take 254 := by
      simp only [List.append_assoc, List.cons_append]
      rw [List.take_append_of_le_length h]
    unfold FileName
    rw [e, List.take_append_of_le_length (by rw [List.length_take]; omega), List.take_take]
    simp
  rw [this, this]

example : 254 ≤ ({ outDir := List.replicate 254 97 } : Opts).outDir.length := by decide +kernel

/-! ## Messages -/

/-- Messages: when a failure is reported, it is that of the last operation, and some call
has given that code or no pointer. -/
theorem C130_reported (o : Opts) (tid i f : Nat) (t : List Ev) (e : End Unit) (h : Can (iteration o tid i f) t e)
    (a b : List Ev) (n : Nat) (c : EstErr) (r : Ans) (ht : t = a ++ ⟨.failed n c, r⟩ :: b) :
    n = LastOp o ∧ c ≠ .none ∧ ∃ y ∈ a, y.ans.rc = c ∨ y.ans.ptr = false :=
  ((iter_fine h).1 a _ b ht).1

/-- When no failure is reported, the last of the operations that were asked for has
succeeded. -/
theorem C130_silent_partial (o : Opts) (tid i f : Nat) (t : List Ev) (h : Can (iteration o tid i f) t (.ret ()))
    (hn : ∀ x ∈ t, ∀ n c, x.call ≠ .failed n c) : Success o t := by
  rcases (iter_fine h).2.1 rfl with ⟨x, hx, n, c, hc⟩ | h
  · exact absurd hc (hn x hx n c)
  · exact h

example : ∀ x ∈ (exKeyCalls.zip exKey).map (fun p => (⟨p.1, p.2⟩ : Ev)), ∀ n c, x.call ≠ .failed n c := by
  intro x hx n c
  simp only [exKeyCalls, exKey, List.zip_cons_cons, List.zip_nil_right, List.map_cons, List.map_nil, List.mem_cons, List.not_mem_nil, or_false] at hx
  rcases hx with rfl | rfl | rfl | rfl | rfl | rfl | rfl | rfl | rfl | rfl | rfl | rfl <;> simp

/-- That silence means success of all that was asked for is false: the CA certificates
cannot be had, the attributes can, and nothing is reported. -/
theorem C130_silent_false :
    (play (iteration { getcert := true, getcsr := true, outDir := [111] } 0 0 0)
      [{}, {}, {}, {}, { rc := .sslConnect }, { data := [65] }, {}, {}]).map (·.1.map Ev.call) =
    some [.init, .readTimeout 10, .setAuth [] [] false false, .setServer [] 0 none, .getCacerts, .getAttrs,
      .write [111, 47, 99, 115, 114, 45, 48, 45, 48, 46, 98, 97, 115, 101, 54, 52] ⟨[65], 0⟩, .destroy] := by decide +kernel

/-- The key from the server cannot be copied, a buffer that nothing was written into is
stored as the key, and nothing is reported. -/
theorem C130_key_lost_false :
    (play (iteration { keygen := true, outDir := [111] } 0 0 0)
      [{}, {}, {}, {}, { len := 2, klen := 3 }, {}, { rc := .noKey }, {}, {}, { data := [1, 2] }, {}, {}]).map (·.1.map Ev.call) =
    some [.init, .readTimeout 10, .setAuth [] [] false false, .setServer [] 0 none, .keygenEnroll [49, 50, 55, 46, 48, 46, 48, 46, 49],
      .alloc 3, .copyKey, .write [111, 47, 107, 101, 121, 45, 48, 45, 48, 46, 107, 101, 121] ⟨[], 3⟩, .alloc 2, .copyCert, .write [111, 47, 99, 101, 114, 116, 45, 48, 45, 48, 46, 112, 107, 99, 115, 55] ⟨[1, 2], 0⟩,
      .destroy] := by decide +kernel

/-! ## CA certificates and enrolment in one round -/

/-- How the library answers: after CA certificates were copied out of a context
(`est_client_copy_cacerts` marks it as not initialized, `est_client.c` line 4013), every
enrolment is refused (lines 3162, 3505 and 3654). -/
def Library (t : List Ev) : Prop :=
  ∀ (a b : List Ev) (x : Ev), t = a ++ x :: b → x.call = .copyCacerts → x.ans.rc = .none →
    ∀ y ∈ b, IsEnrol y.call ∨ y.call = .reenroll → y.ans.rc = .clientNotInitialized

/-- That a client can get the CA certificates and a certificate in one run (`-g -e`) is
false: with the library as it is, once the CA certificates were copied no certificate is
fetched, and a failure is reported. -/
theorem C130_ca_then_enrol_false (o : Opts) (tid i f : Nat) (t : List Ev) (h : Can (iteration o tid i f) t (.ret ()))
    (hl : Library t) (y : Ans) (hy : ⟨.copyCacerts, y⟩ ∈ t) (hr : y.rc = .none)
    (ho : o.enroll = true ∨ o.keygen = true ∨ o.reenroll = true) :
    (∀ x ∈ t, x.call ≠ .copyCert ∧ x.call ≠ .copyKey) ∧ ∃ x ∈ t, ∃ n c, x.call = .failed n c := by
  have fine := (iter_fine h).1
  obtain ⟨a, b, rfl⟩ := List.append_of_mem hy
  have bad : ∀ (g : Ev), g ∈ a ++ ⟨.copyCacerts, y⟩ :: b → IsEnrol g.call ∨ g.call = .reenroll → g.ans.rc ≠ .none := by
    intro g hg hc
    have before := (fine a _ b rfl).1
    simp only [List.mem_append, List.mem_cons] at hg
    rcases hg with hg | rfl | hg
    · have := before g hg
      rcases hc with hc | hc
      · exact absurd hc this.1
      · exact absurd hc this.2
    · simp [IsEnrol] at hc
    · rw [hl a b _ rfl rfl hr g hg hc]; simp
  have none : ∀ x ∈ a ++ ⟨.copyCacerts, y⟩ :: b, x.call ≠ .copyCert ∧ x.call ≠ .copyKey := by
    intro x hx
    obtain ⟨c, d, hcd⟩ := List.append_of_mem hx
    have hf := (fine c x d hcd).1
    constructor
    · intro hc
      unfold Order at hf
      rw [hc] at hf
      obtain ⟨g, hg, h1, h2⟩ := hf
      exact bad g (by rw [hcd]; simp [hg]) h1 h2
    · intro hc
      unfold Order at hf
      rw [hc] at hf
      obtain ⟨g, hg, h1, h2⟩ := hf
      exact bad g (by rw [hcd]; simp [hg]) (.inl h1) h2
  refine ⟨none, ?_⟩
  rcases (iter_fine h).2.1 rfl with h1 | h1
  · exact h1
  · exfalso
    have : ∃ z : Ans, ⟨.copyCert, z⟩ ∈ a ++ ⟨.copyCacerts, y⟩ :: b ∧ z.rc = .none := by
      unfold Success at h1
      split at h1
      · exact h1
      · rename_i h2
        rw [if_pos (by simp [h2] at ho; simpa using ho)] at h1
        exact h1
    obtain ⟨z, hz, _⟩ := this
    exact (none _ hz).1 rfl

/-- A run with `-g -e`. -/
example : (play (iteration { getcert := true, enroll := true, outDir := [111] } 0 0 0)
    [{}, {}, {}, {}, { len := 1 }, {}, { data := [5] }, {}, { rc := .clientNotInitialized }, {}, {}]).map (·.1.map Ev.call) =
    some [.init, .readTimeout 10, .setAuth [] [] false false, .setServer [] 0 none, .getCacerts, .alloc 1, .copyCacerts,
      .write [111, 47, 99, 97, 99, 101, 114, 116, 45, 48, 45, 48, 46, 112, 107, 99, 115, 55] ⟨[5], 0⟩, .enroll [49, 50, 55, 46, 48, 46, 48, 46, 49], .failed 4 .clientNotInitialized, .destroy] := by
  decide +kernel

/-! ## All rounds -/

/-- A thread: what it does is a list of rounds with consecutive numbers.  All but the last
have come to their end; if the thread comes to its end all have, and there are as many as
the command line says. -/
theorem C130_thread (o : Opts) (tid f : Nat) : ∀ (n i : Nat) (t : List Ev) (e : End Unit), Can (worker o tid f n i) t e →
    ∃ ts : List (List Ev), t = ts.flatten ∧ ts.length ≤ n ∧ (e = .ret () → ts.length = n) ∧
      (∀ k (hk : k < ts.length), ∃ x, Can (iteration o tid (i + k) f) ts[k] x ∧ (k + 1 < ts.length → x = .ret ()) ∧
        (k + 1 = ts.length → x = e))
  | 0, i, t, e, h => by
    obtain ⟨rfl, rfl⟩ := h
    exact ⟨[], by simp⟩
  | n + 1, i, t, e, h => by
    rcases can_bind _ _ _ _ h with ⟨_, t1, t2, rfl, h1, h2⟩ | ⟨x, hx, h1⟩
    · obtain ⟨ts, rfl, hl, he, hall⟩ := C130_thread o tid f n (i + 1) t2 e h2
      refine ⟨t1 :: ts, by simp, by simp; omega, fun hr => by simp [he hr], ?_⟩
      intro k hk
      cases k with
      | zero =>
        refine ⟨.ret (), h1, fun _ => rfl, ?_⟩
        intro hk1
        simp only [List.length_cons] at hk1
        have h0 : ts = [] := List.length_eq_zero_iff.1 (by omega)
        subst h0
        cases n with
        | zero => exact h2.2.symm
        | succ n =>
          exfalso
          rcases can_bind _ _ _ _ h2 with ⟨_, u1, u2, hu, g1, _⟩ | ⟨x, _, g1⟩
          · have : u1 = [] := by simpa using (List.append_eq_nil_iff.1 hu.symm).1
            subst this
            obtain ⟨a, d, mid, hm, _⟩ := C130_context _ _ _ _ _ g1
            simp at hm
          · rcases C130_set_up _ _ _ _ _ _ (by
              rcases can_bind _ _ _ _ h2 with g | g
              · exact g1
              · exact g1) with ⟨⟨t', y, r, ht, _⟩, _⟩ | ⟨tc, tu, ht, ⟨hm, _⟩, _⟩
            · simp at ht
            · have : tc = [] := by simpa using (List.append_eq_nil_iff.1 ht.symm).1
              subst this
              simp [SetUp] at hm
      | succ k =>
        simp only [List.length_cons] at hk
        obtain ⟨x, g1, g2, g3⟩ := hall k (by omega)
        refine ⟨x, ?_, fun h => g2 (by simp at h; omega), fun h => g3 (by simp at h; omega)⟩
        simpa [Nat.add_assoc, Nat.add_comm 1 k] using g1
    · have h0 : e ≠ .ret () := by rintro rfl; exact stops_ret hx
      have hxe : x = e := by
        cases x <;> simp [End.stops] at hx <;> first | exact hx | (subst hx; rfl)
      subst hxe
      refine ⟨[t], by simp, by simp, fun hr => absurd hr h0, ?_⟩
      intro k hk
      simp only [List.length_singleton] at hk
      have : k = 0 := by omega
      subst this
      exact ⟨x, h1, fun h => by simp at h, fun _ => rfl⟩

/-- Two rounds. -/
example : (play (worker { getcsr := true, outDir := [111] } 3 0 2 0)
    [{}, {}, {}, {}, { rc := .httpNoContent }, {}, {}, {}, {}, {}, {}, {}, { data := [65] }, {}, {}]).map (·.1.map Ev.call) =
    some [.init, .readTimeout 10, .setAuth [] [] false false, .setServer [] 0 none, .getAttrs,
      .write [111, 47, 99, 115, 114, 45, 51, 45, 48, 46, 98, 97, 115, 101, 54, 52] ⟨[], 0⟩, .failed 6 .httpNoContent, .destroy,
      .init, .readTimeout 10, .setAuth [] [] false false, .setServer [] 0 none, .getAttrs,
      .write [111, 47, 99, 115, 114, 45, 51, 45, 49, 46, 98, 97, 115, 101, 54, 52] ⟨[65], 0⟩, .destroy] := by decide +kernel

/-! ## Requests that are read or made -/

/-- As many requests were freed as were read from a file. -/
def Freed (t : List Ev) : Prop :=
  t.countP (fun x => decide (x.call = .readCsr) && x.ans.ptr) = t.countP (fun x => decide (x.call = .freeReq))

theorem freed_append {a b : List Ev} (ha : Freed a) (hb : Freed b) : Freed (a ++ b) := by
  unfold Freed at *
  rw [List.countP_append, List.countP_append, ha, hb]

theorem freed_none {t : List Ev} (h : ∀ x ∈ t, x.call ≠ .readCsr ∧ x.call ≠ .freeReq) : Freed t := by
  unfold Freed
  rw [List.countP_eq_zero.2, List.countP_eq_zero.2]
  · intro x hx; simpa using (h x hx).2
  · intro x hx; simp [(h x hx).1]

theorem freed_bind {α β : Type} {p : Prog α} {f : α → Prog β} (hp : ∀ t e, Can p t e → Freed t)
    (hf : ∀ a t e, Can (f a) t e → Freed t) : ∀ t e, Can (p.bind f) t e → Freed t := by
  intro t e h
  rcases can_bind _ _ _ _ h with ⟨a, t1, t2, rfl, h1, h2⟩ | ⟨x, _, h1⟩
  · exact freed_append (hp _ _ h1) (hf _ _ _ h2)
  · exact hp _ _ h1

theorem freed_only {α : Type} {p : Prog α} (h : Only (fun c => c ≠ .readCsr ∧ c ≠ .freeReq) p) :
    ∀ t e, Can p t e → Freed t := fun _ _ hc => freed_none (only_can _ _ _ _ h hc)

theorem freed_simple (o : Opts) (tid i : Nat) : ∀ t e, Can (simpleAttempt o tid i) t e → Freed t := by
  have fetched : ∀ b t e, Can (fetch o tid i b) t e → Freed t := fun b => freed_only (only_mono (by
    intro c hc; cases c <;> simp_all [OfFetch]) _ (only_fetch o tid i b))
  have go : ∀ t e, Can (simpleGo o tid i) t e → Freed t := by
    intro t e h
    unfold simpleGo at h
    split at h
    · obtain ⟨r, t1, rfl, h⟩ := h
      dsimp only at h
      split at h
      · rename_i hr
        obtain ⟨rfl, _⟩ := h
        have : r.ptr = false := by simpa using hr
        simp [Freed, this]
      · rename_i hr
        obtain ⟨b, t2, rfl, u, t3, rfl, h⟩ := h
        have hr' : r.ptr = true := by simpa using hr
        have hf : Freed t3 := fetched _ _ _ h
        have hk : (if o.keygen then Call.keygenEnrollCsr false else Call.enrollCsr false) ≠ .readCsr ∧
            (if o.keygen then Call.keygenEnrollCsr false else Call.enrollCsr false) ≠ .freeReq := by
          split <;> simp
        unfold Freed at hf ⊢
        simp [List.countP_cons, hr', hk.1, hk.2, hf]
    · obtain ⟨b, t1, rfl, h⟩ := h
      have hf : Freed t1 := fetched _ _ _ h
      have hk : (if o.keygen then Call.keygenEnroll o.cn else Call.enroll o.cn) ≠ .readCsr ∧
          (if o.keygen then Call.keygenEnroll o.cn else Call.enroll o.cn) ≠ .freeReq := by
        split <;> simp
      unfold Freed at hf ⊢
      simp [List.countP_cons, hk.1, hk.2, hf]
  intro t e h
  unfold simpleAttempt at h
  split at h
  · obtain ⟨a, t1, rfl, h⟩ := h
    dsimp only at h
    split at h
    · obtain ⟨rfl, _⟩ := h; simp [Freed]
    · have := go _ _ h
      unfold Freed at this ⊢
      simp [List.countP_cons, this]
  · exact go _ _ h

/-- A CSR that was read from a file is freed, in every round and however it ends. -/
theorem C130_csr_freed (o : Opts) (tid i f : Nat) (t : List Ev) (e : End Unit) (h : Can (iteration o tid i f) t e)
    (hc : o.getcsr = false) : Freed t := by
  rcases iter_parts h with ⟨h1, rfl⟩ | ⟨tc, tu, rfl, h1, h2⟩
  · refine freed_none fun x hx => ?_
    have := lastbad_ofSetUp h1 x hx
    cases hh : x.call <;> simp_all [OfSetUp]
  · refine freed_append (freed_none fun x hx => ?_) ?_
    · have := allok_ofSetUp h1 x hx
      cases hh : x.call <;> simp_all [OfSetUp]
    · refine freed_bind (freed_only (only_mono ?_ _ (only_ca o tid i))) (fun s => freed_bind ?_ (fun s => freed_bind
        (freed_only (only_mono ?_ _ (only_reenrollPart o tid i s))) (fun s => freed_only (only_mono ?_ _ (only_finish s))))) _ _ h2
      · intro c hc
        rcases hc with rfl | rfl | ⟨n, rfl⟩ | ⟨n, rfl⟩ | ⟨n, b, rfl⟩ <;> simp
      · intro t e h
        unfold enrollPart at h
        rw [if_neg (by simp [hc])] at h
        split at h
        · refine freed_bind ?_ (fun a t e h => by obtain ⟨rfl, _⟩ := h; simp [Freed]) _ _ h
          refine freed_bind (freed_simple o tid i) (fun a t e h => ?_)
          split at h
          · obtain ⟨r, t1, rfl, h⟩ := h
            have : Freed t1 := by
              refine freed_bind ?_ (fun _ => freed_simple o tid i) _ _ h
              intro t e h
              split at h
              · exact freed_only (only_mono (by intro c hc; cases c <;> simp_all [IsWait]) _ (only_delay _ _)) _ _ h
              · obtain ⟨rfl, _⟩ := h; simp [Freed]
            unfold Freed at this ⊢
            simp [List.countP_cons, this]
          · obtain ⟨rfl, _⟩ := h; simp [Freed]
        · rw [if_neg (by simp [hc])] at h
          obtain ⟨rfl, _⟩ := h; simp [Freed]
      · intro c hc
        cases c <;> simp_all [OfReenrol, IsWait]
      · rintro c (⟨n, e, rfl⟩ | rfl) <;> simp

example : (play (iteration { enroll := true, csrFile := true, outDir := [111] } 0 0 0)
    [{}, {}, {}, {}, {}, { rc := .sslConnect }, {}, {}, {}]).map (·.1.map Ev.call) =
    some [.init, .readTimeout 10, .setAuth [] [] false false, .setServer [] 0 none, .readCsr, .enrollCsr false, .freeReq,
      .failed 4 .sslConnect, .destroy] := by decide +kernel

/-- That a request the client has made itself is freed is false: no regular enrolment
frees anything. -/
theorem C130_req_freed_false (o : Opts) (tid i f : Nat) (t : List Ev) (e : End EstErr) (h : Can (regularAttempt o tid i f) t e) :
    ∀ x ∈ t, x.call ≠ .freeReq := by
  have : Only (fun c => c ≠ .freeReq) (regularAttempt o tid i f) := by
    refine ⟨by simp, fun g => ?_⟩
    bsplit
    · trivial
    · refine ⟨by simp, fun r => ?_⟩
      bsplit
      · trivial
      · refine ⟨by simp, fun p => ?_⟩
        bsplit
        · trivial
        · refine ⟨by simp, fun d => ?_⟩
          bsplit
          · trivial
          · refine only_bind _ _ _ (only_mono ?_ _ (only_loop _ _)) fun _ => ⟨by split <;> simp, fun b => only_mono ?_ _ (only_fetch _ _ _ _)⟩
            · rintro c (rfl | ⟨n, s, rfl⟩) <;> simp
            · intro c hc; cases c <;> simp_all [OfFetch]
  exact only_can _ _ _ _ this h

/-! ## Callbacks -/

/-- Of the certificates that OpenSSL refuses, the client accepts those for which there is
no revocation list, and no others. -/
theorem C130_verify (err : Int) : verifyCb err = 1 ∧ err = 3 ∨ verifyCb err = 0 ∧ err ≠ 3 := by
  unfold verifyCb
  split <;> simp_all

/-- The token of the command line is handed to the library, if the server asks for a
token. -/
theorem C130_token_partial (o : Opts) (tok : List Nat) (h : tokenCb o true true = .success (some tok)) : tok = o.token := by
  unfold tokenCb at h
  simp only [if_true, Bool.not_true, Bool.false_eq_true, if_false] at h
  split at h <;> simp at h
  exact h.symm

example : tokenCb { token := [97, 98] } true true = .success (some [97, 98]) := by decide +kernel

/-- Without memory for the token there is no success; with it a token that is not empty is handed over. -/
theorem C130_token_memory (o : Opts) (h : o.token ≠ []) :
    tokenCb o true false = .notAvailable ∧ tokenCb o true true = .success (some o.token) := by
  unfold tokenCb
  simp [h]

example : ({ token := [97] } : Opts).token ≠ [] := by decide

/-- No token is handed over when the server asks for something else. -/
theorem C130_token_other (o : Opts) (mem : Bool) : tokenCb o false mem = .notAvailable := rfl

/-- That success comes with a token is false: an empty token on the command line gives
success and a null pointer. -/
theorem C130_token_false (mem : Bool) : tokenCb { tokenMode := true } true mem = .success none := by
  cases mem <;> rfl

/-- The password of the command line is handed to OpenSSL, if it fits. -/
theorem C130_password_partial (pwd : List Nat) (size : Nat) (h : pwd.length ≤ size) (h0 : 0 ∉ pwd) :
    (passwordCb pwd size).2 = pwd.length ∧ (passwordCb pwd size).1.take pwd.length = pwd ∧
    (passwordCb pwd size).1.length = size := by
  have e : pwd.take size = pwd := List.take_of_length_le h
  have w : ∀ (l : List Nat) (n : Nat), 0 ∉ l → (l ++ List.replicate n 0).takeWhile (· ≠ 0) = l := by
    intro l n hl
    induction l with
    | nil => cases n <;> simp [List.replicate_succ]
    | cons a l ih =>
      have ha : a ≠ 0 := fun hh => hl (by simp [hh])
      rw [List.cons_append, List.takeWhile_cons_of_pos (by simpa using ha), ih (fun hh => hl (by simp [hh]))]
  unfold passwordCb
  dsimp only
  rw [e]
  refine ⟨?_, by simp, by simp; omega⟩
  rw [w pwd _ h0]

example : passwordCb [97, 98] 4 = ([97, 98, 0, 0], 2) := by decide +kernel

/-- A password that does not fit is cut without a word. -/
theorem C130_password_false : passwordCb [97, 98, 99] 2 = ([97, 98], 2) := by decide +kernel

end Verif.SampleCli
