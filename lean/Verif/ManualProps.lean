import Verif.ManualLemmas
import Verif.DispatchProps

/-!
# C119: manual approval in the sample server

Over any history of requests the sample server with manual approval has a request signed exactly
if its public key is the key of a request that was told to wait and has not been answered since.
-/

namespace Verif.Manual

open Verif.Server

/-! ## Specification -/

/-- The request that was handed to the CA callback, if one was. -/
def callOf (d : Done) : Option CaReq :=
  d.out.evs.findSome? fun e => match e with
    | .ca _ q => some q
    | _ => none

/-- The public key of the request that was handed to the CA callback. -/
def keyOf (key : List Nat → Option (List Nat)) (d : Done) : Option (List Nat) :=
  (callOf d).bind fun q => key q.body

/-- How many of these requests reached the CA callback with this key. -/
def arrivals (key : List Nat → Option (List Nat)) (ds : List Done) (n : List Nat) : Nat :=
  (ds.filterMap (keyOf key)).count n

/-- How many of these requests were signed with this key. -/
def signings (key : List Nat → Option (List Nat)) (ds : List Done) (n : List Nat) : Nat :=
  ((ds.filter fun d => d.signed.isSome).filterMap (keyOf key)).count n

theorem caCall_eq : ∀ evs : List Ev, caCall evs =
    evs.findSome? fun e => match e with
      | .ca _ q => some q
      | _ => none
  | [] => rfl
  | e :: es => by
    cases e <;> simp [caCall, caCall_eq es]

theorem callOf_eq (d : Done) : callOf d = caCall d.out.evs := (caCall_eq _).symm

/-! ## One request -/

theorem serve_cases {σ : Type} {look : σ → List Nat → Bool × σ} {manual : Bool} {parse} {st st1 : σ}
    {a : Ask} {d : Done} (h : serve look manual parse st a = some (d, st1)) :
    (callOf d = none ∧ d.signed = none ∧ st1 = st) ∨
    ∃ q, callOf d = some q ∧ st1 = (process look manual a.sign st q.body).st ∧
      d.signed = if (process look manual a.sign st q.body).asked then some q.body else none := by
  unfold serve at h
  cases hh : handle look manual parse st a with
  | none => simp [hh] at h
  | some o =>
    simp only [hh] at h
    cases hc : caCall o.evs with
    | none =>
      simp only [hc, Option.some.injEq, Prod.mk.injEq] at h
      obtain ⟨rfl, rfl⟩ := h
      exact .inl ⟨by rw [callOf_eq]; exact hc, rfl, rfl⟩
    | some q =>
      simp only [hc] at h
      cases hg : (process look manual a.sign st q.body).got with
      | hole => simp [hg] at h
      | res r =>
        simp only [hg, Option.some.injEq, Prod.mk.injEq] at h
        obtain ⟨rfl, rfl⟩ := h
        exact .inr ⟨q, by rw [callOf_eq]; exact hc, rfl, rfl⟩

theorem serve_manual {σ : Type} {look : σ → List Nat → Bool × σ} {parse} {st st1 : σ}
    {a : Ask} {d : Done} (h : serve look true parse st a = some (d, st1)) :
    (callOf d = none ∧ d.signed = none ∧ st1 = st) ∨
    ∃ q, callOf d = some q ∧ st1 = (look st q.body).2 ∧
      d.signed = if (look st q.body).1 then some q.body else none := by
  rcases serve_cases h with h | ⟨q, h1, h2, h3⟩
  · exact .inl h
  · refine .inr ⟨q, h1, ?_, ?_⟩
    · rw [h2]; unfold process; cases hl : (look st q.body).1 <;> simp [hl]
    · rw [h3]; unfold process; cases hl : (look st q.body).1 <;> simp [hl]

/-! ## Parity -/

theorem arrivals_cons (key) (d : Done) (ds : List Done) (n : List Nat) :
    arrivals key (d :: ds) n = (if keyOf key d = some n then 1 else 0) + arrivals key ds n := by
  unfold arrivals
  cases hk : keyOf key d with
  | none => simp [hk]
  | some m =>
    simp only [List.filterMap_cons, hk, List.count_cons, Option.some.injEq, beq_iff_eq]
    omega

/-- The step of the parity argument. -/
theorem parity_step {c : Nat} {P Q : Prop} (h : Q ↔ ¬ P) :
    ((c % 2 = 0 ↔ Q) ↔ ((1 + c) % 2 = 0 ↔ P)) := by
  have h2 : (1 + c) % 2 = 0 ↔ ¬ c % 2 = 0 := by omega
  rw [h, h2]
  by_cases hp : P <;> by_cases hc : c % 2 = 0 <;> simp [hp, hc]

/-- What is in the table after the request, for every key. -/
theorem serve_has {σ : Type} {key} {look : σ → List Nat → Bool × σ} {Inv : σ → Prop}
    {has : σ → List Nat → Prop} (T : Turns key look Inv has) {parse} {st st1 : σ} (hi : Inv st)
    {a : Ask} {d : Done} (h : serve look true parse st a = some (d, st1)) :
    Inv st1 ∧ ∀ n, has st1 n ↔ if keyOf key d = some n then ¬ has st n else has st n := by
  rcases serve_manual h with ⟨h1, _, h2⟩ | ⟨q, h1, h2, _⟩
  · subst h2
    exact ⟨hi, fun n => by simp [keyOf, h1]⟩
  · subst h2
    refine ⟨T.inv hi, fun n => ?_⟩
    cases hk : key q.body with
    | none => simp [keyOf, h1, hk, T.none hk]
    | some m =>
      rw [T.turn hi hk]
      simp only [keyOf, h1, Option.bind_some, hk, Option.some.injEq]
      by_cases e : n = m
      · simp [e]
      · have : ¬ m = n := fun h => e h.symm
        simp [e, this]

/-- Whether the request was signed, by what was in the table. -/
theorem serve_signed {σ : Type} {key} {look : σ → List Nat → Bool × σ} {Inv : σ → Prop}
    {has : σ → List Nat → Prop} (T : Turns key look Inv has) {parse} {st st1 : σ} (hi : Inv st)
    {a : Ask} {d : Done} (h : serve look true parse st a = some (d, st1)) {n : List Nat}
    (hn : keyOf key d = some n) : d.signed.isSome = true ↔ has st n := by
  rcases serve_manual h with ⟨h1, _, h2⟩ | ⟨q, h1, h2, h3⟩
  · simp [keyOf, h1] at hn
  · simp only [keyOf, h1, Option.bind_some] at hn
    rw [← T.found hi hn, h3]
    cases (look st q.body).1 <;> simp

theorem run_parity {σ : Type} {key} {look : σ → List Nat → Bool × σ} {Inv : σ → Prop}
    {has : σ → List Nat → Prop} (T : Turns key look Inv has) {parse} :
    ∀ {asks : List Ask} {st st' : σ} {ds : List Done}, Inv st →
      run look true parse st asks = some (ds, st') →
      Inv st' ∧ (∀ n, has st' n ↔ (arrivals key ds n % 2 = 0 ↔ has st n)) ∧
      ∀ i (hl : i < ds.length) n, keyOf key ds[i] = some n →
        (ds[i].signed.isSome = true ↔ (arrivals key (ds.take i) n % 2 = 0 ↔ has st n))
  | [], st, st', ds, hi, h => by
    simp only [run, Option.some.injEq, Prod.mk.injEq] at h
    obtain ⟨rfl, rfl⟩ := h
    exact ⟨hi, fun n => by simp [arrivals], fun i hl => by simp at hl⟩
  | a :: as, st, st', ds, hi, h => by
    unfold run at h
    cases hs : serve look true parse st a with
    | none => simp [hs] at h
    | some p =>
      obtain ⟨d, st1⟩ := p
      simp only [hs] at h
      cases hr : run look true parse st1 as with
      | none => simp [hr] at h
      | some p2 =>
        obtain ⟨ds2, st2⟩ := p2
        simp only [hr, Option.some.injEq, Prod.mk.injEq] at h
        obtain ⟨rfl, rfl⟩ := h
        obtain ⟨hi1, hh⟩ := serve_has T hi hs
        obtain ⟨j1, j2, j3⟩ := run_parity T hi1 hr
        refine ⟨j1, fun n => ?_, fun i hl n hn => ?_⟩
        · rw [j2 n, arrivals_cons]
          by_cases e : keyOf key d = some n
          · simp only [e, if_true]
            exact parity_step (by rw [hh n]; simp [e])
          · simp only [e, if_false, Nat.zero_add]
            rw [hh n]; simp [e]
        · cases i with
          | zero =>
            simp only [List.getElem_cons_zero] at hn ⊢
            rw [serve_signed T hi hs hn]
            simp [arrivals]
          | succ i =>
            simp only [List.getElem_cons_succ] at hn ⊢
            rw [j3 i (by simpa using hl) n hn, List.take_succ_cons, arrivals_cons]
            by_cases e : keyOf key d = some n
            · simp only [e, if_true]
              exact parity_step (by rw [hh n]; simp [e])
            · simp only [e, if_false, Nat.zero_add]
              rw [hh n]; simp [e]

theorem start_tree : Bst emptyTree.tab ∧ ∀ n, ¬ tmem n emptyTree.tab := by
  simp [emptyTree, Bst, tmem]

theorem start_list : emptyList.tab.Nodup ∧ ∀ n, n ∉ emptyList.tab := by
  simp [emptyList]

/-! ## C119 -/

/-- C119: in any history of requests, of any clients and through any of the three operations, a
request that reaches the CA callback with the key `n` is signed exactly if the number of earlier
requests that reached the callback with this key is odd: the first is told to wait, the second
is signed, the third is told to wait again. -/
theorem C119_second_request {key parse} {asks : List Ask} {ds : List Done} {st : Tab Tree}
    (h : run (lookupTree key) true parse emptyTree asks = some (ds, st)) {i : Nat}
    (hl : i < ds.length) {n : List Nat} (hn : keyOf key ds[i] = some n) :
    ds[i].signed.isSome = true ↔ arrivals key (ds.take i) n % 2 = 1 := by
  obtain ⟨_, _, h3⟩ := run_parity (turns_tree key) start_tree.1 h
  rw [h3 i hl n hn]
  have := start_tree.2 n
  simp only [this, iff_false]
  omega

/-- C119 for the build without the search tree. -/
theorem C119_second_request_list {key parse} {asks : List Ask} {ds : List Done}
    {st : Tab (List (List Nat))}
    (h : run (lookupList key) true parse emptyList asks = some (ds, st)) {i : Nat}
    (hl : i < ds.length) {n : List Nat} (hn : keyOf key ds[i] = some n) :
    ds[i].signed.isSome = true ↔ arrivals key (ds.take i) n % 2 = 1 := by
  obtain ⟨_, _, h3⟩ := run_parity (turns_list key) start_list.1 h
  rw [h3 i hl n hn]
  have := start_list.2 n
  simp only [this, iff_false]
  omega

/-- C119: what is signed is the very request that was handed to the callback; a request that
does not get that far (refused, not authorised, not parsed) has nothing signed, and it counts
for nobody. -/
theorem C119_signed_is_own {σ : Type} {look : σ → List Nat → Bool × σ} {manual : Bool} {parse} :
    ∀ {asks : List Ask} {st st' : σ} {ds : List Done},
      run look manual parse st asks = some (ds, st') → ∀ d ∈ ds, ∀ p, d.signed = some p →
        ∃ q, callOf d = some q ∧ q.body = p
  | [], st, st', ds, h, d, hd, p, hp => by
    simp only [run, Option.some.injEq, Prod.mk.injEq] at h
    obtain ⟨rfl, rfl⟩ := h
    simp at hd
  | a :: as, st, st', ds, h, d, hd, p, hp => by
    unfold run at h
    cases hs : serve look manual parse st a with
    | none => simp [hs] at h
    | some p1 =>
      obtain ⟨d1, st1⟩ := p1
      simp only [hs] at h
      cases hr : run look manual parse st1 as with
      | none => simp [hr] at h
      | some p2 =>
        obtain ⟨ds2, st2⟩ := p2
        simp only [hr, Option.some.injEq, Prod.mk.injEq] at h
        obtain ⟨rfl, rfl⟩ := h
        rcases List.mem_cons.1 hd with rfl | hd
        · rcases serve_cases hs with ⟨_, h1, _⟩ | ⟨q, h1, _, h2⟩
          · rw [h1] at hp; cases hp
          · rw [h2] at hp
            refine ⟨q, h1, ?_⟩
            split at hp
            · simpa using hp
            · cases hp
        · exact C119_signed_is_own hr d hd p hp

theorem arrivals_split {key} {ds : List Done} {n : List Nat} : ∀ {i : Nat}, i ≤ ds.length →
    0 < arrivals key (ds.take i) n → ∃ j, ∃ _ : j < i, ∃ hl : j < ds.length,
      keyOf key ds[j] = some n ∧ arrivals key (ds.take i) n = arrivals key (ds.take j) n + 1 ∧
      ∀ m (hm : m < ds.length), j < m → m < i → keyOf key ds[m] ≠ some n
  | 0, _, h => by simp [arrivals] at h
  | i + 1, hi, h => by
    have hl : i < ds.length := by omega
    have hs : arrivals key (ds.take (i + 1)) n = arrivals key (ds.take i) n +
        (if keyOf key ds[i] = some n then 1 else 0) := by
      rw [List.take_succ_eq_append_getElem hl]
      unfold arrivals
      rw [List.filterMap_append, List.count_append]
      congr 1
      cases hk : keyOf key ds[i] with
      | none => simp [hk]
      | some m =>
        by_cases e : m = n <;> simp [hk, e]
    by_cases e : keyOf key ds[i] = some n
    · refine ⟨i, by omega, hl, e, by rw [hs]; simp [e], ?_⟩
      intro m _ h1 h2; omega
    · have hs' : arrivals key (ds.take (i + 1)) n = arrivals key (ds.take i) n := by
        rw [hs]; simp [e]
      obtain ⟨j, hj, hjl, h1, h2, h3⟩ := arrivals_split (key := key) (ds := ds) (n := n)
        (i := i) (by omega) (by omega)
      refine ⟨j, by omega, hjl, h1, by rw [hs', h2], ?_⟩
      intro m hm a b
      by_cases hmi : m = i
      · subst hmi; exact e
      · exact h3 m hm a (by omega)

/-- C119: whatever is signed was asked for before.  For a signed request there is an earlier
request with the same key that reached the callback and was not signed, and none with this key
in between: every approval is used at most once, and nobody's request is signed on arrival. -/
theorem C119_waited_before {key parse} {asks : List Ask} {ds : List Done} {st : Tab Tree}
    (h : run (lookupTree key) true parse emptyTree asks = some (ds, st)) {i : Nat}
    (hl : i < ds.length) {n : List Nat} (hn : keyOf key ds[i] = some n)
    (hsig : ds[i].signed.isSome = true) :
    ∃ j, ∃ hj : j < ds.length, j < i ∧ keyOf key ds[j] = some n ∧ ds[j].signed = none ∧
      ∀ m (hm : m < ds.length), j < m → m < i → keyOf key ds[m] ≠ some n := by
  have h1 := (C119_second_request h hl hn).1 hsig
  obtain ⟨j, hji, hj, h2, h3, h4⟩ := arrivals_split (key := key) (ds := ds) (n := n) (i := i)
    (by omega) (by omega)
  refine ⟨j, hj, hji, h2, ?_, h4⟩
  cases hsj : ds[j].signed with
  | none => rfl
  | some p =>
    have := (C119_second_request h hj h2).1 (by rw [hsj]; rfl)
    omega

/-- C119: the two builds of the sample server answer alike: with the tree of the C library and
with the linked list the same history gives the same outcomes, or is undefined in both. -/
theorem run_agree {key parse} : ∀ {asks : List Ask} {s : Tab Tree} {t : Tab (List (List Nat))}
    {manual : Bool}, Bst s.tab → t.tab.Nodup → (∀ n, tmem n s.tab ↔ n ∈ t.tab) →
    (run (lookupTree key) manual parse s asks).map (·.1) =
      (run (lookupList key) manual parse t asks).map (·.1)
  | [], s, t, manual, _, _, _ => rfl
  | a :: as, s, t, manual, h1, h2, h3 => by
    have T := turns_tree key
    have L := turns_list key
    have hlook : ∀ p, (lookupTree key s p).1 = (lookupList key t p).1 := by
      intro p
      cases hk : key p with
      | none => rw [T.none hk, L.none hk]
      | some n =>
        have e1 := T.found (st := s) h1 hk
        have e2 := L.found (st := t) h2 hk
        have e3 := e1.trans ((h3 n).trans e2.symm)
        revert e3
        cases (lookupTree key s p).1 <;> cases (lookupList key t p).1 <;> simp
    have hgot : ∀ p, (process (lookupTree key) manual a.sign s p).got =
        (process (lookupList key) manual a.sign t p).got := by
      intro p
      unfold process
      cases manual with
      | false => rfl
      | true =>
        simp only [if_true, hlook p]
        cases (lookupList key t p).1 <;> rfl
    have hasked : ∀ p, (process (lookupTree key) manual a.sign s p).asked =
        (process (lookupList key) manual a.sign t p).asked := by
      intro p
      unfold process
      cases manual with
      | false => rfl
      | true =>
        simp only [if_true, hlook p]
        cases (lookupList key t p).1 <;> rfl
    have hh : handle (lookupTree key) manual parse s a = handle (lookupList key) manual parse t a := by
      unfold handle
      simp only [hgot]
    have next : ∀ p, (∀ m, tmem m (process (lookupTree key) manual a.sign s p).st.tab ↔
          m ∈ (process (lookupList key) manual a.sign t p).st.tab) ∧
        Bst (process (lookupTree key) manual a.sign s p).st.tab ∧
        (process (lookupList key) manual a.sign t p).st.tab.Nodup := by
      intro p
      cases manual with
      | false => exact ⟨h3, h1, h2⟩
      | true =>
        have e1 : (process (lookupTree key) true a.sign s p).st = (lookupTree key s p).2 := by
          unfold process; cases hl : (lookupTree key s p).1 <;> simp [hl]
        have e2 : (process (lookupList key) true a.sign t p).st = (lookupList key t p).2 := by
          unfold process; cases hl : (lookupList key t p).1 <;> simp [hl]
        rw [e1, e2]
        refine ⟨fun m => ?_, T.inv h1, L.inv h2⟩
        cases hk : key p with
        | none => rw [T.none hk, L.none hk]; exact h3 m
        | some n =>
          have a1 := T.turn (st := s) h1 hk m
          have a2 := L.turn (st := t) h2 hk m
          rw [a1, a2]
          by_cases e : m = n
          · simp [e, h3 n]
          · simp [e, h3 m]
    unfold run serve
    rw [hh]
    cases handle (lookupList key) manual parse t a with
    | none => rfl
    | some o =>
      cases hc : caCall o.evs with
      | none =>
        simp only [hc]
        have ih := run_agree (key := key) (parse := parse) (asks := as) (manual := manual) h1 h2 h3
        revert ih
        cases run (lookupTree key) manual parse s as <;>
          cases run (lookupList key) manual parse t as <;> simp
      | some q =>
        simp only [hc, hgot, hasked]
        cases (process (lookupList key) manual a.sign t q.body).got with
        | hole => rfl
        | res r =>
          obtain ⟨n1, n2, n3⟩ := next q.body
          have ih := run_agree (key := key) (parse := parse) (asks := as) (manual := manual) n2 n3 n1
          simp only
          revert ih
          cases run (lookupTree key) manual parse _ as <;>
            cases run (lookupList key) manual parse _ as <;> simp

/-- C119: the two builds of the sample server answer alike: with the tree of the C library and
with the linked list the same history gives the same outcomes, or is undefined in both. -/
theorem C119_builds_agree (key : List Nat → Option (List Nat)) (parse : List Nat → Option Csr)
    (manual : Bool) (asks : List Ask) :
    (run (lookupTree key) manual parse emptyTree asks).map (·.1) =
      (run (lookupList key) manual parse emptyList asks).map (·.1) :=
  run_agree start_tree.1 start_list.1
    (fun n => ⟨fun h => absurd h (start_tree.2 n), fun h => absurd h (start_list.2 n)⟩)

/-- C119: the comparison given to the search tree is a total order in which only equal keys
compare equal, as the C library demands. -/
theorem C119_order (a b c : List Nat) :
    (cmp a b = 0 ↔ a = b) ∧ cmp b a = - cmp a b ∧ (cmp a b < 0 → cmp b c < 0 → cmp a c < 0) :=
  ⟨cmp_zero, cmp_swap a b, cmp_trans⟩

/-! ## The answers -/

theorem caCall_pre {evs rest : List Ev} {k : CaKind} {q : CaReq}
    (h : ∀ e ∈ evs, ∃ c, e = Ev.askApp c) : caCall (evs ++ .ca k q :: rest) = some q := by
  induction evs with
  | nil => rfl
  | cons e es ih =>
    obtain ⟨c, rfl⟩ := h e (by simp)
    simp only [List.cons_append, caCall]
    exact ih fun e he => h e (by simp [he])

theorem caCall_none {evs : List Ev} (h : OnlyAuth evs) : caCall evs = none := by
  induction evs with
  | nil => rfl
  | cons e es ih =>
    have := ih fun e he => h e (by simp [he])
    rcases h e (by simp) with ⟨c, rfl⟩ | rfl <;> simpa [caCall] using this

theorem auth_pre {cfg : Cfg} {tls : Tls} {hdr parse ty buf} {a : AuthOut}
    (h : enrollAuth cfg tls hdr parse ty buf = some a) (ha : Authorised a.st) :
    ∀ e ∈ a.evs, ∃ c, e = Ev.askApp c := by
  rcases enrollAuth_pending h with ⟨hp, _⟩ | ⟨_, hp⟩
  · simp [Authorised, hp] at ha
  · exact hp

/-- What the library does with the answer `r` of the callback to the request `q`: the effects
before it are questions about credentials only, and the rest is decided by the answer. -/
def Answered (a : Ask) (o : Out) (q : CaReq) (r : CaRes) : Prop :=
  ∃ pre k rest, (∀ e ∈ pre, ∃ c, e = Ev.askApp c) ∧ o.evs = pre ++ .ca k q :: rest ∧
    (r.rc = .caEnrollRetry → rest = [] ∧ o.rc = .caEnrollRetry) ∧
    (r.rc = .none →
      (r.cert = [] → rest = [] ∧ o.rc = .caEnrollFail) ∧
      (r.cert ≠ [] → a.kind ≠ .keygen → a.cfg.transport = .http → a.net.hdrOut = true →
        r.cert.length ≤ a.net.bodyOut → rest = [.head 200, .body r.cert] ∧ o.rc = .none))

theorem handle_answer {σ : Type} {look : σ → List Nat → Bool × σ} {manual : Bool} {parse} {st : σ}
    {a : Ask} {o : Out} {q : CaReq} (h : handle look manual parse st a = some o)
    (hq : caCall o.evs = some q) :
    Answered a o q (process look manual a.sign st q.body).got.ans := by
  have enr : ∀ re : Bool, a.kind ≠ .keygen →
      simpleEnroll { a.cfg with
        enrollCb := some fun q => (process look manual a.sign st q.body).got.ans
        reenrollCb := some fun q => (process look manual a.sign st q.body).got.ans }
        a.tls a.net parse re a.rq = some o →
      Answered a o q (process look manual a.sign st q.body).got.ans := by
    intro re hk h
    rcases simpleEnroll_cases h with hs | ⟨ca, au, csr, hr, ho⟩
    · rw [caCall_none hs.evs] at hq; cases hq
    · have hpre := auth_pre hr.auth hr.ok
      have hca : ca = fun q => (process look manual a.sign st q.body).got.ans := by
        have := hr.cb
        cases re <;> simp [caOf] at this <;> exact this.symm
      subst hca
      generalize hqe : caReqOf { a.cfg with
        enrollCb := some fun q => (process look manual a.sign st q.body).got.ans
        reenrollCb := some fun q => (process look manual a.sign st q.body).got.ans }
        a.tls a.rq au = q' at ho
      have hx : o.evs = au.evs ++ .ca (kindOf re) q' :: (o.evs.drop (au.evs.length + 1)) := by
        rw [ho]
        unfold enrollAnswer
        simp only
        split
        · split
          · simp
          · split <;> simp
        · split <;> simp
      have hqq : q' = q := by
        rw [hx, caCall_pre hpre] at hq
        simpa using hq
      subst hqq
      refine ⟨au.evs, kindOf re, o.evs.drop (au.evs.length + 1), hpre, hx, ?_, ?_⟩
      · intro h1
        rw [ho]
        unfold enrollAnswer
        simp [h1]
      · intro h1
        refine ⟨fun h2 => ?_, fun h2 _ ht hn hb => ?_⟩
        · rw [ho]
          unfold enrollAnswer
          simp [h1, h2]
        · rw [ho]
          unfold enrollAnswer
          simp only [h1, h2, ne_eq, not_false_eq_true, and_self, if_true, ht, hn, Bool.not_true,
            Bool.false_eq_true, if_false]
          simp [writeBody, List.take_of_length_le hb, h2]
  unfold handle at h
  cases hk : a.kind with
  | enroll => simp only [hk] at h; exact enr false (by simp [hk]) h
  | reenroll => simp only [hk] at h; exact enr true (by simp [hk]) h
  | keygen =>
    simp only [hk] at h
    rcases serverKeygen_cases h with hs | ⟨ca, au, csr, key, csr2, hr, ho⟩
    · rw [caCall_none hs.evs] at hq; cases hq
    · have hpre := auth_pre hr.auth hr.ok
      have hca : ca = fun q k => ((process look manual a.sign st q.body).got.ans, k) := by
        have := hr.cb
        simp at this
        exact this.symm
      subst hca
      generalize hqe : keygenReq a.cfg a.tls a.rq au _ = q' at ho
      have hx : o.evs = au.evs ++ .ca .keygen q' :: (o.evs.drop (au.evs.length + 1)) := by
        rw [ho]
        unfold keygenAnswer
        simp only
        split
        · split
          · simp
          · split <;> simp
        · split <;> simp
      have hqq : q' = q := by
        rw [hx, caCall_pre hpre] at hq
        simpa using hq
      subst hqq
      refine ⟨au.evs, .keygen, o.evs.drop (au.evs.length + 1), hpre, hx, ?_, ?_⟩
      · intro h1
        rw [ho]
        unfold keygenAnswer
        simp [h1]
      · intro h1
        refine ⟨fun h2 => ?_, fun _ h2 => absurd hk h2⟩
        rw [ho]
        unfold keygenAnswer
        simp [h1, h2]

theorem serve_handle {σ : Type} {look : σ → List Nat → Bool × σ} {manual : Bool} {parse}
    {st st1 : σ} {a : Ask} {d : Done} (h : serve look manual parse st a = some (d, st1)) :
    handle look manual parse st a = some d.out ∧
    ∀ q, callOf d = some q → ∃ r, (process look manual a.sign st q.body).got = .res r := by
  unfold serve at h
  cases hh : handle look manual parse st a with
  | none => simp [hh] at h
  | some o =>
    simp only [hh] at h
    cases hc : caCall o.evs with
    | none =>
      simp only [hc, Option.some.injEq, Prod.mk.injEq] at h
      obtain ⟨rfl, rfl⟩ := h
      refine ⟨rfl, fun q hq => ?_⟩
      rw [callOf_eq] at hq
      rw [hc] at hq
      cases hq
    | some q =>
      simp only [hc] at h
      cases hg : (process look manual a.sign st q.body).got with
      | hole => simp [hg] at h
      | res r =>
        simp only [hg, Option.some.injEq, Prod.mk.injEq] at h
        obtain ⟨rfl, rfl⟩ := h
        refine ⟨rfl, fun q' hq => ?_⟩
        rw [callOf_eq] at hq
        rw [hc] at hq
        cases hq
        exact ⟨r, hg⟩

theorem run_nth {σ : Type} {look : σ → List Nat → Bool × σ} {manual : Bool} {parse} :
    ∀ {asks : List Ask} {st st' : σ} {ds : List Done},
      run look manual parse st asks = some (ds, st') → ds.length = asks.length ∧
      ∀ i (hl : i < ds.length) (ha : i < asks.length),
        ∃ s s', serve look manual parse s asks[i] = some (ds[i], s')
  | [], st, st', ds, h => by
    simp only [run, Option.some.injEq, Prod.mk.injEq] at h
    obtain ⟨rfl, rfl⟩ := h
    exact ⟨rfl, fun i hl => by simp at hl⟩
  | a :: as, st, st', ds, h => by
    unfold run at h
    cases hs : serve look manual parse st a with
    | none => simp [hs] at h
    | some p =>
      obtain ⟨d, st1⟩ := p
      simp only [hs] at h
      cases hr : run look manual parse st1 as with
      | none => simp [hr] at h
      | some p2 =>
        obtain ⟨ds2, st2⟩ := p2
        simp only [hr, Option.some.injEq, Prod.mk.injEq] at h
        obtain ⟨rfl, rfl⟩ := h
        obtain ⟨j1, j2⟩ := run_nth hr
        refine ⟨by simp [j1], fun i hl ha => ?_⟩
        cases i with
        | zero => exact ⟨st, st1, hs⟩
        | succ i => exact j2 i (by simpa using hl) (by simpa using ha)

theorem process_signed {σ : Type} {look : σ → List Nat → Bool × σ} {parse} {st st1 : σ}
    {a : Ask} {d : Done} {q : CaReq} (h : serve look true parse st a = some (d, st1))
    (hq : callOf d = some q) :
    (d.signed = none ∧ (process look true a.sign st q.body).got = .res ⟨.caEnrollRetry, []⟩) ∨
    (d.signed = some q.body ∧ (process look true a.sign st q.body).got =
      handBack (a.sign q.body)) := by
  rcases serve_manual h with ⟨h1, _, _⟩ | ⟨q', h1, _, h3⟩
  · rw [h1] at hq; cases hq
  · rw [h1] at hq
    cases hq
    cases hl : (look st q.body).1 with
    | true => right; rw [h3]; simp [process, hl]
    | false => left; rw [h3]; simp [process, hl]

/-- C119: who is not signed is told to wait.  A request that reaches the callback and is not
signed ends with the code for a retry, which the library turns into status 202, and nothing has
been sent before that. -/
theorem C119_told_to_wait {key parse} {asks : List Ask} {ds : List Done} {st : Tab Tree}
    (h : run (lookupTree key) true parse emptyTree asks = some (ds, st)) {i : Nat}
    (hl : i < ds.length) {q : CaReq} (hq : callOf ds[i] = some q) (hs : ds[i].signed = none) :
    ds[i].out.rc = .caEnrollRetry ∧ errStatus ds[i].out.rc = 202 ∧
      ∀ e ∈ ds[i].out.evs, (∃ c, e = .askApp c) ∨ ∃ k, e = .ca k q := by
  obtain ⟨n1, n2⟩ := run_nth h
  obtain ⟨s, s', hv⟩ := n2 i hl (by omega)
  obtain ⟨hh, _⟩ := serve_handle hv
  rcases process_signed hv hq with ⟨_, hg⟩ | ⟨h1, _⟩
  · obtain ⟨pre, k, rest, hp, he, hr, _⟩ := handle_answer hh (by rw [← callOf_eq]; exact hq)
    rw [hg] at hr
    obtain ⟨hr1, hr2⟩ := hr rfl
    refine ⟨hr2, by rw [hr2]; rfl, fun e hm => ?_⟩
    rw [he, hr1] at hm
    simp only [List.mem_append, List.mem_singleton] at hm
    rcases hm with hm | hm
    · exact .inl (hp e hm)
    · exact .inr ⟨k, hm⟩
  · rw [hs] at h1; cases h1

/-- C119: who is signed gets the certificate.  The answer to a signed enrolment or re-enrolment
is what the CA produced for this very request: over HTTP, with a network that delivers, a 200
header and the certificate; if the CA produced nothing, the failure of an enrolment. -/
theorem C119_certificate {key parse} {asks : List Ask} {ds : List Done} {st : Tab Tree}
    (h : run (lookupTree key) true parse emptyTree asks = some (ds, st)) {i : Nat}
    (hl : i < ds.length) (ha : i < asks.length) {p : List Nat} (hs : ds[i].signed = some p) :
    ((asks[i].sign p = none ∨ asks[i].sign p = some []) → ds[i].out.rc = .caEnrollFail) ∧
    ∀ c, asks[i].sign p = some c → c ≠ [] → c.length < 8192 ∧
      (asks[i].kind ≠ .keygen → asks[i].cfg.transport = .http → asks[i].net.hdrOut = true →
        c.length ≤ asks[i].net.bodyOut → ds[i].out.rc = .none ∧
        ∃ pre q k, ds[i].out.evs = pre ++ [.ca k q, .head 200, .body c] ∧ q.body = p) := by
  obtain ⟨q, hq, hqp⟩ := C119_signed_is_own h ds[i] (List.getElem_mem hl) p hs
  subst hqp
  obtain ⟨n1, n2⟩ := run_nth h
  obtain ⟨s, s', hv⟩ := n2 i hl ha
  obtain ⟨hh, hres⟩ := serve_handle hv
  rcases process_signed hv hq with ⟨h1, _⟩ | ⟨_, hg⟩
  · rw [hs] at h1; cases h1
  · obtain ⟨pre, k, rest, hp, he, _, hr⟩ := handle_answer hh (by rw [← callOf_eq]; exact hq)
    obtain ⟨r, hr0⟩ := hres q hq
    rw [hg] at hr hr0
    refine ⟨fun hx => ?_, fun c hc hne => ?_⟩
    · have : handBack (asks[i].sign q.body) = .res ⟨.none, []⟩ := by
        rcases hx with hx | hx <;> simp [handBack, hx]
      rw [this] at hr
      exact ((hr rfl).1 rfl).2
    · have hlen : c.length ≠ 0 := by simpa using hne
      have hsz : c.length < 8192 := by
        by_cases hb : c.length < 8192
        · exact hb
        · simp [handBack, hc, hne, hb] at hr0
      have hb2 : handBack (asks[i].sign q.body) = .res ⟨.none, c⟩ := by
        simp only [handBack, hc, hlen, hsz, if_true, if_false]
      rw [hb2] at hr
      refine ⟨hsz, fun a1 a2 a3 a4 => ?_⟩
      obtain ⟨b1, b2⟩ := (hr rfl).2 hne a1 a2 a3 a4
      exact ⟨b2, pre, q, k, by rw [he, b1]; rfl, rfl⟩

/-- C119: there is no way round the waiting.  If the sample server finds a key in every request
that the library could parse and that has a key (both use the same decoder of OpenSSL), every
signed enrolment or re-enrolment has an earlier request with the same key that was told to wait,
and no other request with this key between the two. -/
theorem C119_no_bypass {key parse} {asks : List Ask} {ds : List Done} {st : Tab Tree}
    (hdec : ∀ body csr, parse body = some csr → csr.hasPubkey = true → (key body).isSome = true)
    (h : run (lookupTree key) true parse emptyTree asks = some (ds, st)) {i : Nat}
    (hl : i < ds.length) (ha : i < asks.length) (hk : asks[i].kind ≠ .keygen)
    (hs : ds[i].signed.isSome = true) :
    ∃ n, keyOf key ds[i] = some n ∧
      ∃ j, ∃ hj : j < ds.length, j < i ∧ keyOf key ds[j] = some n ∧ ds[j].signed = none ∧
        ds[j].out.rc = .caEnrollRetry ∧
        ∀ m (hm : m < ds.length), j < m → m < i → keyOf key ds[m] ≠ some n := by
  obtain ⟨p, hp⟩ := Option.isSome_iff_exists.1 hs
  obtain ⟨q, hq, hqp⟩ := C119_signed_is_own h ds[i] (List.getElem_mem hl) p hp
  obtain ⟨n1, n2⟩ := run_nth h
  obtain ⟨s, s', hv⟩ := n2 i hl ha
  obtain ⟨hh, _⟩ := serve_handle hv
  have hq' : caCall ds[i].out.evs = some q := by rw [← callOf_eq]; exact hq
  have hsome : (key q.body).isSome = true := by
    have enr : ∀ re cfg, simpleEnroll cfg asks[i].tls asks[i].net parse re asks[i].rq =
        some ds[i].out → (key q.body).isSome = true := by
      intro re cfg h
      rcases simpleEnroll_cases h with hst | ⟨ca, au, csr, hr, ho⟩
      · rw [caCall_none hst.evs] at hq'; cases hq'
      · have hx : ∃ rest, ds[i].out.evs = au.evs ++
            .ca (kindOf re) (caReqOf cfg asks[i].tls asks[i].rq au) :: rest := by
          rw [ho]
          unfold enrollAnswer
          simp only
          split
          · split
            · exact ⟨[], by simp⟩
            · split
              · exact ⟨[], by simp⟩
              · exact ⟨_, by rw [List.append_assoc, List.append_assoc]; rfl⟩
          · split <;> exact ⟨[], by simp⟩
        obtain ⟨rest, hx⟩ := hx
        rw [hx, caCall_pre (auth_pre hr.auth hr.ok)] at hq'
        simp only [Option.some.injEq] at hq'
        rw [← hq']
        have hc := hr.checked
        simp only [checkCsr, Bool.and_eq_true] at hc
        exact hdec _ csr hr.parsed hc.1
    unfold handle at hh
    cases hkk : asks[i].kind with
    | enroll => simp only [hkk] at hh; exact enr false _ hh
    | reenroll => simp only [hkk] at hh; exact enr true _ hh
    | keygen => exact absurd hkk hk
  obtain ⟨n, hn⟩ := Option.isSome_iff_exists.1 hsome
  have hkn : keyOf key ds[i] = some n := by simp [keyOf, hq, hn]
  obtain ⟨j, hj, hji, a1, a2, a3⟩ := C119_waited_before h hl hkn hs
  refine ⟨n, hkn, j, hj, hji, a1, a2, ?_, a3⟩
  cases hqj : callOf ds[j] with
  | none => simp [keyOf, hqj] at a1
  | some qj => exact (C119_told_to_wait h hj hqj a2).1

example : ∀ body csr, (fun _ => some demoCsr : List Nat → Option Csr) body = some csr → csr.hasPubkey = true → ((some : List Nat → Option (List Nat)) body).isSome = true :=
  fun _ _ _ _ => rfl

/-! ## Counting -/

theorem signings_cons (key) (d : Done) (ds : List Done) (n : List Nat) :
    signings key (d :: ds) n =
      (if keyOf key d = some n ∧ d.signed.isSome = true then 1 else 0) + signings key ds n := by
  unfold signings
  cases hs : d.signed with
  | none => simp [hs]
  | some p =>
    cases hk : keyOf key d with
    | none => simp [hs, hk]
    | some m =>
      simp only [List.filter_cons, hs, Option.isSome_some, if_true, List.filterMap_cons, hk,
        List.count_cons, Option.some.injEq, beq_iff_eq, and_true]
      omega

open Classical in
theorem run_count {σ : Type} {key} {look : σ → List Nat → Bool × σ} {Inv : σ → Prop}
    {has : σ → List Nat → Prop} (T : Turns key look Inv has) {parse} {n : List Nat} :
    ∀ {asks : List Ask} {st st' : σ} {ds : List Done}, Inv st →
      run look true parse st asks = some (ds, st') →
      2 * signings key ds n + (if has st' n then 1 else 0) =
        arrivals key ds n + (if has st n then 1 else 0)
  | [], st, st', ds, hi, h => by
    simp only [run, Option.some.injEq, Prod.mk.injEq] at h
    obtain ⟨rfl, rfl⟩ := h
    simp [signings, arrivals]
  | a :: as, st, st', ds, hi, h => by
    unfold run at h
    cases hs : serve look true parse st a with
    | none => simp [hs] at h
    | some p =>
      obtain ⟨d, st1⟩ := p
      simp only [hs] at h
      cases hr : run look true parse st1 as with
      | none => simp [hr] at h
      | some p2 =>
        obtain ⟨ds2, st2⟩ := p2
        simp only [hr, Option.some.injEq, Prod.mk.injEq] at h
        obtain ⟨rfl, rfl⟩ := h
        obtain ⟨hi1, hh⟩ := serve_has T hi hs
        have ih := run_count T (n := n) hi1 hr
        have hn := hh n
        rw [signings_cons, arrivals_cons]
        by_cases e : keyOf key d = some n
        · have hsg := serve_signed T hi hs e
          simp only [e, if_true, true_and] at hn ⊢
          by_cases g : has st n
          · have : ¬ has st1 n := by rw [hn]; simpa using g
            simp only [this, if_false] at ih
            simp only [g, if_true, hsg.2 g]
            omega
          · have h1 : has st1 n := by rw [hn]; exact g
            have h2 : ¬ d.signed.isSome = true := fun x => g (hsg.1 x)
            simp only [h1, if_true] at ih
            simp only [g, if_false, h2, Bool.false_eq_true]
            omega
        · simp only [e, if_false, false_and] at hn ⊢
          simp only [hn] at ih
          omega

/-- C119: half of the requests with a key are signed, rounded down. -/
theorem C119_half {key parse} {asks : List Ask} {ds : List Done} {st : Tab Tree}
    (h : run (lookupTree key) true parse emptyTree asks = some (ds, st)) (n : List Nat) :
    signings key ds n = arrivals key ds n / 2 := by
  have h1 := run_count (turns_tree key) (n := n) start_tree.1 h
  have h2 := start_tree.2 n
  simp only [h2, if_false] at h1
  split at h1 <;> omega

/-- C119: without manual approval every request that reaches the callback is signed, and the
table is not touched. -/
theorem C119_automatic {σ : Type} {look : σ → List Nat → Bool × σ} {parse} :
    ∀ {asks : List Ask} {st st' : σ} {ds : List Done},
      run look false parse st asks = some (ds, st') → st' = st ∧
        ∀ d ∈ ds, ∀ q, callOf d = some q → d.signed = some q.body
  | [], st, st', ds, h => by
    simp only [run, Option.some.injEq, Prod.mk.injEq] at h
    obtain ⟨rfl, rfl⟩ := h
    exact ⟨rfl, fun d hd => by simp at hd⟩
  | a :: as, st, st', ds, h => by
    unfold run at h
    cases hs : serve look false parse st a with
    | none => simp [hs] at h
    | some p =>
      obtain ⟨d, st1⟩ := p
      simp only [hs] at h
      cases hr : run look false parse st1 as with
      | none => simp [hr] at h
      | some p2 =>
        obtain ⟨ds2, st2⟩ := p2
        simp only [hr, Option.some.injEq, Prod.mk.injEq] at h
        obtain ⟨rfl, rfl⟩ := h
        obtain ⟨j1, j2⟩ := C119_automatic hr
        rcases serve_cases hs with ⟨h1, _, h2⟩ | ⟨q, h1, h2, h3⟩
        · refine ⟨j1.trans h2, fun d' hd q hq => ?_⟩
          rcases List.mem_cons.1 hd with rfl | hd
          · rw [h1] at hq; cases hq
          · exact j2 d' hd q hq
        · refine ⟨j1.trans (by rw [h2]; rfl), fun d' hd q' hq => ?_⟩
          rcases List.mem_cons.1 hd with rfl | hd
          · rw [h1] at hq; cases hq; rw [h3]; rfl
          · exact j2 d' hd q' hq

/-! ## Keys made by the server -/

/-- C119: a request with a key that no earlier request had is told to wait. -/
theorem C119_new_key_waits {key parse} {asks : List Ask} {ds : List Done} {st : Tab Tree}
    (h : run (lookupTree key) true parse emptyTree asks = some (ds, st)) {i : Nat}
    (hl : i < ds.length) {n : List Nat} (hn : keyOf key ds[i] = some n)
    (hnew : ∀ j (hj : j < ds.length), j < i → keyOf key ds[j] ≠ some n) :
    ds[i].signed = none ∧ ds[i].out.rc = .caEnrollRetry := by
  have hs : ds[i].signed = none := by
    cases hs : ds[i].signed with
    | none => rfl
    | some p =>
      obtain ⟨j, hj, hji, hk, _⟩ := C119_waited_before h hl hn (by rw [hs]; rfl)
      exact absurd hk (hnew j hj hji)
  refine ⟨hs, ?_⟩
  cases hq : callOf ds[i] with
  | none => simp [keyOf, hq] at hn
  | some q => exact (C119_told_to_wait h hl hq hs).1

/-- The key generation of a request makes the key `g`, and the public key found in the request
that is handed on is the one of `g`. -/
def Makes (key : List Nat → Option (List Nat)) (pub : List Nat → List Nat) (a : Ask)
    (g : List Nat) : Prop :=
  a.gen.keygenCb = some (some g) ∧
  ∀ csr csr2, a.gen.sign g csr = some csr2 → key (a.gen.encode csr2) = some (pub g)

theorem keygen_key {σ : Type} {key} {look : σ → List Nat → Bool × σ} {manual : Bool} {parse} {st : σ}
    {a : Ask} {o : Out} {q : CaReq} (h : handle look manual parse st a = some o)
    (hk : a.kind = .keygen) (hq : caCall o.evs = some q) {pub g} (hm : Makes key pub a g) :
    key q.body = some (pub g) := by
  unfold handle at h
  simp only [hk] at h
  rcases serverKeygen_cases h with hs | ⟨ca, au, csr, k2, csr2, hr, ho⟩
  · rw [caCall_none hs.evs] at hq; cases hq
  · have hpre := auth_pre hr.auth hr.ok
    have hgen := hr.gen
    simp only [hm.1, Option.some.injEq] at hgen
    subst hgen
    obtain ⟨csr1, _, hsg⟩ := hr.rekeyed
    generalize hqe : keygenReq a.cfg a.tls a.rq au _ = q' at ho
    have hx : ∃ rest, o.evs = au.evs ++ .ca .keygen q' :: rest := by
      rw [ho]
      unfold keygenAnswer
      simp only
      split
      · split
        · exact ⟨[], by simp⟩
        · split
          · exact ⟨[], by simp⟩
          · exact ⟨_, by rw [List.append_assoc, List.append_assoc]; rfl⟩
      · split <;> exact ⟨[], by simp⟩
    obtain ⟨rest, hx⟩ := hx
    rw [hx, caCall_pre hpre] at hq
    simp only [Option.some.injEq] at hq
    rw [← hq, ← hqe]
    exact hm.2 csr1 csr2 hsg

/-- C119: with manual approval nobody who asks for a key made by the server is ever served.  In
a history of key generations with keys that never repeat, however often the clients come back,
no request is signed: every one that reaches the callback is told to wait. -/
theorem C119_keygen_never {key parse} {pub : List Nat → List Nat} {asks : List Ask}
    {ds : List Done} {st : Tab Tree}
    (h : run (lookupTree key) true parse emptyTree asks = some (ds, st))
    {gs : List (List Nat)} (hg : gs.length = asks.length)
    (hk : ∀ i (hi : i < asks.length), asks[i].kind = .keygen ∧ Makes key pub asks[i] gs[i])
    (hd : ∀ i j (hi : i < gs.length) (hj : j < gs.length), pub gs[i] = pub gs[j] → i = j)
    {i : Nat} (hl : i < ds.length) :
    ds[i].signed = none ∧ ∀ q, callOf ds[i] = some q → ds[i].out.rc = .caEnrollRetry := by
  obtain ⟨n1, n2⟩ := run_nth h
  have hkey : ∀ j (hj : j < ds.length), keyOf key ds[j] = none ∨
      keyOf key ds[j] = some (pub (gs[j]'(by omega))) := by
    intro j hj
    obtain ⟨s, s', hv⟩ := n2 j hj (by omega)
    obtain ⟨hh, _⟩ := serve_handle hv
    cases hq : callOf ds[j] with
    | none => left; simp [keyOf, hq]
    | some q =>
      right
      simp only [keyOf, hq, Option.bind_some]
      exact keygen_key hh (hk j (by omega)).1 (by rw [← callOf_eq]; exact hq) (hk j (by omega)).2
  cases hq : callOf ds[i] with
  | none =>
    refine ⟨?_, fun q hq' => by cases hq'⟩
    cases hs : ds[i].signed with
    | none => rfl
    | some p =>
      obtain ⟨q, h1, _⟩ := C119_signed_is_own h ds[i] (List.getElem_mem hl) p hs
      rw [hq] at h1; cases h1
  | some q =>
    have hn : keyOf key ds[i] = some (pub (gs[i]'(by omega))) := by
      rcases hkey i hl with h0 | h0
      · obtain ⟨s, s', hv⟩ := n2 i hl (by omega)
        obtain ⟨hh, _⟩ := serve_handle hv
        have := keygen_key hh (hk i (by omega)).1 (by rw [← callOf_eq]; exact hq)
          (hk i (by omega)).2
        simp only [keyOf, hq, Option.bind_some]
        exact this
      · exact h0
    have := C119_new_key_waits h hl hn (by
      intro j hj hji hc
      rcases hkey j hj with h0 | h0
      · rw [h0] at hc; cases hc
      · rw [h0] at hc
        simp only [Option.some.injEq] at hc
        have := hd j i (by omega) (by omega) hc
        omega)
    exact ⟨this.1, fun _ _ => this.2⟩

/-! ## Memory -/

/-- How many requests with a key were told to wait. -/
def waits (key : List Nat → Option (List Nat)) (ds : List Done) : Nat :=
  (ds.filter fun d => (keyOf key d).isSome && d.signed.isNone).length

theorem tree_live {key parse} : ∀ {asks : List Ask} {st st' : Tab Tree} {ds : List Done},
    run (lookupTree key) true parse st asks = some (ds, st') →
    st'.live = st.live + 2 * waits key ds
  | [], st, st', ds, h => by
    simp only [run, Option.some.injEq, Prod.mk.injEq] at h
    obtain ⟨rfl, rfl⟩ := h
    simp [waits]
  | a :: as, st, st', ds, h => by
    unfold run at h
    cases hs : serve (lookupTree key) true parse st a with
    | none => simp [hs] at h
    | some p =>
      obtain ⟨d, st1⟩ := p
      simp only [hs] at h
      cases hr : run (lookupTree key) true parse st1 as with
      | none => simp [hr] at h
      | some p2 =>
        obtain ⟨ds2, st2⟩ := p2
        simp only [hr, Option.some.injEq, Prod.mk.injEq] at h
        obtain ⟨rfl, rfl⟩ := h
        have ih := tree_live hr
        have hw : waits key (d :: ds2) =
            (if (keyOf key d).isSome && d.signed.isNone then 1 else 0) + waits key ds2 := by
          unfold waits
          rw [List.filter_cons]
          split <;> simp [*]; omega
        rw [ih, hw]
        rcases serve_manual hs with ⟨h1, _, h2⟩ | ⟨q, h1, h2, h3⟩
        · subst h2; simp [keyOf, h1]
        · subst h2
          rw [h3]
          simp only [keyOf, h1, Option.bind_some]
          unfold lookupTree
          cases hk : key q.body with
          | none => simp
          | some n =>
            by_cases hx : tfind n st.tab = true
            · simp [hx]
            · simp [hx]
              omega

/-- C119, memory with the search tree: two blocks stay for every request that was ever told to
wait, whether it was served later or not. -/
theorem C119_tree_memory {key parse} {asks : List Ask} {ds : List Done} {st : Tab Tree}
    (h : run (lookupTree key) true parse emptyTree asks = some (ds, st)) :
    st.live = 2 * waits key ds := by
  rw [tree_live h]; simp [emptyTree]

theorem list_live {key parse} : ∀ {asks : List Ask} {st st' : Tab (List (List Nat))}
    {ds : List Done}, st.live = 2 * st.tab.length →
    run (lookupList key) true parse st asks = some (ds, st') → st'.live = 2 * st'.tab.length
  | [], st, st', ds, h0, h => by
    simp only [run, Option.some.injEq, Prod.mk.injEq] at h
    obtain ⟨rfl, rfl⟩ := h
    exact h0
  | a :: as, st, st', ds, h0, h => by
    unfold run at h
    cases hs : serve (lookupList key) true parse st a with
    | none => simp [hs] at h
    | some p =>
      obtain ⟨d, st1⟩ := p
      simp only [hs] at h
      cases hr : run (lookupList key) true parse st1 as with
      | none => simp [hr] at h
      | some p2 =>
        obtain ⟨ds2, st2⟩ := p2
        simp only [hr, Option.some.injEq, Prod.mk.injEq] at h
        obtain ⟨rfl, rfl⟩ := h
        refine list_live ?_ hr
        rcases serve_manual hs with ⟨_, _, h2⟩ | ⟨q, _, h2, _⟩
        · subst h2; exact h0
        · subst h2
          unfold lookupList
          cases hk : key q.body with
          | none => exact h0
          | some n =>
            simp only
            by_cases hx : searchList n st.tab = true
            · have hm := searchList_iff.1 hx
              have := List.length_pos_of_mem hm
              simp only [hx, if_true, deleteEntry_eq, List.length_erase_of_mem hm]
              omega
            · simp only [hx, if_false, addEntry_eq, List.length_append, List.length_singleton,
                Bool.false_eq_true]
              omega

/-- C119, memory with the linked list: two blocks for every key in the list and no more. -/
theorem C119_list_memory {key parse} {asks : List Ask} {ds : List Done}
    {st : Tab (List (List Nat))}
    (h : run (lookupList key) true parse emptyList asks = some (ds, st)) :
    st.live = 2 * st.tab.length :=
  list_live (by simp [emptyList]) h

/-! ## Examples -/

/-- A request with the key (and text) `k`, of the user `u`, by HTTP authentication. -/
def exAsk (u k : List Nat) : Ask where
  kind := .enroll
  cfg := { oneUserCfg with authCb := some fun _ => true }
  tls := ⟨none, false, false, none, fun _ => none, false⟩
  net := demoNet
  rq := { demoReq with body := k, hdr := (.good, ⟨.basic, u, [1], []⟩) }
  gen := demoKeygen
  mp := demoMulti
  bodyOut := fun _ => 100
  sign := fun p => some (p ++ [9])

/-- A request of the user for a key made by the server, which makes `g`. -/
def exGen (g : List Nat) : Ask :=
  { exAsk [97] [5] with
    kind := .keygen
    gen := { demoKeygen with keygenCb := some (some g), encode := fun _ => g } }

def exKey : List Nat → Option (List Nat) := some
def exParse : List Nat → Option Csr := fun _ => some demoCsr

/-- What can be seen of a history: whether signed, the code, and the user handed on. -/
def view (r : Option (List Done × Tab Tree)) :
    Option (List (Option (List Nat) × EstErr × Option (List Nat))) :=
  r.map fun x => x.1.map fun d => (d.signed, d.out.rc, (callOf d).map (·.user))

example : view (run (lookupTree exKey) true exParse emptyTree
      [exAsk [97] [5], exAsk [97] [6], exAsk [97] [5], exAsk [97] [5]]) =
    some [(none, .caEnrollRetry, some [97]), (none, .caEnrollRetry, some [97]),
      (some [5], .none, some [97]), (none, .caEnrollRetry, some [97])] := by decide +kernel

example : view (run (lookupTree exKey) true exParse emptyTree
      [exGen [5], exGen [6], exGen [7]]) =
    some [(none, .caEnrollRetry, some [97]), (none, .caEnrollRetry, some [97]),
      (none, .caEnrollRetry, some [97])] := by decide +kernel

example : Makes exKey id (exGen [5]) [5] := ⟨rfl, fun _ _ _ => rfl⟩

example : (run (lookupTree exKey) true exParse emptyTree
      [exAsk [97] [5], exAsk [97] [6], exAsk [97] [5]]).map (·.2) =
    some ⟨.node .nil [6] .nil, 4⟩ := by decide +kernel

example : (run (lookupList exKey) true exParse emptyList
      [exAsk [97] [5], exAsk [97] [6], exAsk [97] [5]]).map (·.2) =
    some ⟨[[6]], 2⟩ := by decide +kernel

/-! ## What is not so -/

/-- C119 is false of the code as to who waited: the approval belongs to the key, not to the
client.  The user `a` asks and is told to wait; the user `b` sends the same request and gets the
certificate; when `a` comes back it is told to wait again. -/
theorem C119_same_client_false :
    ¬ ∀ (asks : List Ask) (ds : List Done) (st : Tab Tree),
      run (lookupTree exKey) true exParse emptyTree asks = some (ds, st) →
      ∀ i (hl : i < ds.length) q, callOf ds[i] = some q → ds[i].signed.isSome = true →
        ∃ j, ∃ hj : j < ds.length, j < i ∧ ∃ q', callOf ds[j] = some q' ∧ q'.user = q.user := by
  intro hall
  have hv : view (run (lookupTree exKey) true exParse emptyTree
      [exAsk [97] [5], exAsk [98] [5], exAsk [97] [5]]) =
    some [(none, .caEnrollRetry, some [97]), (some [5], .none, some [98]),
      (none, .caEnrollRetry, some [97])] := by decide +kernel
  cases hr : run (lookupTree exKey) true exParse emptyTree
      [exAsk [97] [5], exAsk [98] [5], exAsk [97] [5]] with
  | none => rw [hr] at hv; simp [view] at hv
  | some p =>
    obtain ⟨ds, st⟩ := p
    rw [hr] at hv
    simp only [view, Option.map_some, Option.some.injEq] at hv
    match ds, hv with
    | [d0, d1, d2], hv =>
      simp only [List.map_cons, List.map_nil, List.cons.injEq, Prod.mk.injEq, and_true] at hv
      obtain ⟨⟨_, _, u0⟩, ⟨s1, _, u1⟩, _⟩ := hv
      cases hq1 : callOf d1 with
      | none => rw [hq1] at u1; simp at u1
      | some q1 =>
        obtain ⟨j, hj, hji, q', h1, h2⟩ := hall _ _ _ hr 1 (by simp) q1 hq1 (by simp [s1])
        have : j = 0 := by omega
        subst this
        simp only [List.getElem_cons_zero] at h1
        rw [h1] at u0
        rw [hq1] at u1
        simp at u0 u1
        rw [u0, u1] at h2
        simp at h2

/-- C119 is false of the code as to a CA that fails: the approval is used up by the attempt, so
the client that comes back after the failure is told to wait. -/
theorem C119_failure_uses_approval_false :
    view (run (lookupTree exKey) true exParse emptyTree
      [exAsk [97] [5], { exAsk [97] [5] with sign := fun _ => none }, exAsk [97] [5]]) =
    some [(none, .caEnrollRetry, some [97]), (some [5], .caEnrollFail, some [97]),
      (none, .caEnrollRetry, some [97])] := by decide +kernel

theorem handle_congr {σ : Type} {look : σ → List Nat → Bool × σ} {manual : Bool} {parse} {st : σ}
    {a : Ask} {f : List Nat → Option (List Nat)}
    (h : ∀ p, (handBack (a.sign p)).ans = (handBack (f p)).ans) :
    handle look manual parse st a = handle look manual parse st { a with sign := f } := by
  have hp : ∀ p, (process look manual a.sign st p).got.ans = (process look manual f st p).got.ans := by
    intro p
    unfold process
    cases manual with
    | false => exact h p
    | true =>
      simp only [if_true]
      split
      · exact h p
      · rfl
  unfold handle
  simp only [hp]

/-- C119 is false of the code for large certificates: with an output of 8192 bytes or more the
callback reports success and a positive length without a buffer, and the library reads through
a pointer that was never set. -/
theorem C119_large_answer_false (c : List Nat) (hc : 8192 ≤ c.length) :
    run (lookupTree exKey) true exParse emptyTree
      [exAsk [97] [5], { exAsk [97] [5] with sign := fun _ => some c }] = none := by
  have hb : handBack (some c) = .hole := by
    have h1 : ¬ c.length = 0 := by omega
    have h2 : ¬ c.length < 8192 := by omega
    simp only [handBack, h1, h2, if_false]
  have h1 : (serve (lookupTree exKey) true exParse emptyTree (exAsk [97] [5])).map (·.2) =
      some ⟨.node .nil [5] .nil, 2⟩ := by decide +kernel
  unfold run
  cases hs : serve (lookupTree exKey) true exParse emptyTree (exAsk [97] [5]) with
  | none => rfl
  | some p =>
    obtain ⟨d, st⟩ := p
    rw [hs] at h1
    simp only [Option.map_some, Option.some.injEq] at h1
    subst h1
    have h2 : (handle (lookupTree exKey) true exParse ⟨.node .nil [5] .nil, 2⟩
        { exAsk [97] [5] with sign := fun _ => some [] }).map
          (fun o => (caCall o.evs).map (·.body)) = some (some [5]) := by decide +kernel
    have h3 : serve (lookupTree exKey) true exParse ⟨.node .nil [5] .nil, 2⟩
        { exAsk [97] [5] with sign := fun _ => some c } = none := by
      unfold serve
      rw [handle_congr (f := fun _ => some []) (fun p => by simp only [hb]; rfl)]
      cases hh : handle (lookupTree exKey) true exParse ⟨.node .nil [5] .nil, 2⟩
          { exAsk [97] [5] with sign := fun _ => some [] } with
      | none => rfl
      | some o =>
        rw [hh] at h2
        simp only [Option.map_some, Option.some.injEq] at h2
        cases hq : caCall o.evs with
        | none => rw [hq] at h2; simp at h2
        | some q =>
          rw [hq] at h2
          simp only [Option.map_some, Option.some.injEq] at h2
          have hl : (lookupTree exKey ⟨.node .nil [5] .nil, 2⟩ q.body).1 = true := by
            rw [h2]; decide
          simp only [hq, process, hl, if_true, hb]
    simp only
    unfold run
    rw [h3]

example : 8192 ≤ (List.replicate 8192 (0 : Nat)).length := by
  rw [List.length_replicate]; exact Nat.le_refl _

/-- C119 is false of the code as to memory: with the search tree the table is empty again and
two blocks are left. -/
theorem C119_tree_released_false :
    ¬ ∀ (asks : List Ask) (ds : List Done) (st : Tab Tree),
      run (lookupTree exKey) true exParse emptyTree asks = some (ds, st) →
      st.tab = .nil → st.live = 0 := by
  intro hall
  have hv : (run (lookupTree exKey) true exParse emptyTree
      [exAsk [97] [5], exAsk [97] [5]]).map (·.2) = some ⟨.nil, 2⟩ := by decide +kernel
  cases hr : run (lookupTree exKey) true exParse emptyTree
      [exAsk [97] [5], exAsk [97] [5]] with
  | none => rw [hr] at hv; simp at hv
  | some p =>
    rw [hr] at hv
    simp only [Option.map_some, Option.some.injEq] at hv
    have := hall _ p.1 p.2 hr (by rw [hv])
    rw [hv] at this
    simp at this

end Verif.Manual
