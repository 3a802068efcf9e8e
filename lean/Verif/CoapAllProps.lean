import Verif.CoapAllModel
import Verif.CoapProps

/-!
# Sessions of the CoAP server do not influence each other (C94)
-/
namespace Verif.Coap

/-! ## Records keep their key -/

theorem keygenProcess_key (odd) (keygen) (n : Node) : (keygenProcess odd keygen n).2.key = n.key := by
  simp only [keygenProcess]
  repeat' split
  all_goals rfl

theorem storeText_key (odd) (cut) (f : Nat) (b) (text) (n : Node) :
    (storeText odd cut f b text n).node.key = n.key := by
  simp only [storeText]
  repeat' split
  all_goals rfl

theorem postNode_key (cut) (f : Nat) (r : Req) (proc : Node → Out × Node)
    (hp : ∀ x, (proc x).2.key = x.key) (m : Msg) (n : Node) :
    (postNode cut f r proc m n).node.key = n.key := by
  have hk := recv_key f r m.pdu n
  simp only [postNode]
  cases hr : recv f r m.pdu n with
  | ub => rfl
  | err c x => rw [hr] at hk; exact hk _ rfl
  | more x => rw [hr] at hk; exact hk _ rfl
  | respond x => rw [hr] at hk; exact hk _ rfl
  | ready x =>
    rw [hr] at hk
    have := hk _ rfl
    simp only [postEnd]
    split
    · rw [hp, this]
    · simp only [fail, hp, this]
    · simp only [send, hp, this]

theorem nodeStep_key (odd) (cut) (est : Est) (path : Path) (m : Msg) (n : Node) :
    (nodeStep odd cut est path m n).node.key = n.key := by
  cases path with
  | crts =>
    simp only [nodeStep, crtsNode]
    repeat' split
    all_goals first | rfl | exact storeText_key ..
  | att =>
    simp only [nodeStep, attNode]
    repeat' split
    all_goals first | rfl | exact storeText_key ..
  | sen => exact postNode_key _ _ _ _ (process_key odd _) _ _
  | sren => exact postNode_key _ _ _ _ (process_key odd _) _ _
  | skg => exact postNode_key _ _ _ _ (keygenProcess_key odd _) _ _

/-! ## The server in terms of the stored records -/

/-- The handler in terms of the stored records. -/
theorem handle_spec {cap : Nat} {t : Tbl} (h : Inv cap t) {L : Libc} (hL : L.Ok) (odd) (cut)
    (est : Est) (peer : Peer) (hk : peer.key ≠ []) (path : Path) (m : Msg)
    (hpre : precheck peer path m = none) :
    Inv cap (handle L odd cut est t peer path m).2 ∧
    (∀ k', k' ≠ [] → k' ≠ peer.key →
      look (handle L odd cut est t peer path m).2.slots k' = look t.slots k') ∧
    match recordFor cap t peer.key path.req with
    | none => handle L odd cut est t peer path m = ((.reply 500 none [], [.done]), t)
    | some n =>
      (handle L odd cut est t peer path m).1 =
        ((nodeStep odd cut est path m n).reply, (nodeStep odd cut est path m n).evs) ∧
      look (handle L odd cut est t peer path m).2.slots peer.key =
        some (nodeStep odd cut est path m n).node := by
  obtain ⟨inv, hs⟩ := getReq_spec h hL hk path.req
  have main : ∀ (t' : Tbl) (i : Nat) (n : Node), getReq L t peer.key path.req = (some i, t') →
      Inv cap t' → t'.slots[i]? = some n → n.key = peer.key →
      (∀ k', k' ≠ [] → k' ≠ peer.key → look t'.slots k' = look t.slots k') →
      Inv cap (handle L odd cut est t peer path m).2 ∧
      (∀ k', k' ≠ [] → k' ≠ peer.key →
        look (handle L odd cut est t peer path m).2.slots k' = look t.slots k') ∧
      (handle L odd cut est t peer path m).1 =
        ((nodeStep odd cut est path m n).reply, (nodeStep odd cut est path m n).evs) ∧
      look (handle L odd cut est t peer path m).2.slots peer.key =
        some (nodeStep odd cut est path m n).node := by
    intro t' i n hg hi hn hnk ho
    have hh : handle L odd cut est t peer path m =
        (((nodeStep odd cut est path m n).reply, (nodeStep odd cut est path m n).evs),
          putNode t' i (nodeStep odd cut est path m n).node) := by
      simp only [handle, hpre, hg, hn]
    have hmk := nodeStep_key odd cut est path m n
    rw [hh]
    generalize nodeStep odd cut est path m n = r at *
    obtain ⟨p1, p2⟩ := hi.put (n := r.node) hn hmk (by rw [hnk]; exact hk)
    refine ⟨p1, ?_, rfl, ?_⟩
    · intro k' hk' hne
      simp only []
      rw [p2 k' hk', hnk, if_neg hne, ho k' hk' hne]
    · simp only []
      rw [p2 peer.key hk, hnk]; simp
  cases hl : look t.slots peer.key with
  | some n =>
    simp only [hl] at hs
    obtain ⟨i, g1, g2, g3, g4⟩ := hs
    have e : getReq L t peer.key path.req = (some i, (getReq L t peer.key path.req).2) := by
      rw [← g1]
    simp only [recordFor, hl]
    exact main _ i _ e inv g3 (by split <;> simp [reinit, look_key hl])
      (fun k' hk' hne => by rw [g4 k' hk', if_neg hne])
  | none =>
    simp only [hl] at hs
    by_cases hlt : t.cnt < cap
    · simp only [hlt, if_true] at hs
      obtain ⟨i, g1, g2, g3, g4⟩ := hs
      have e : getReq L t peer.key path.req = (some i, (getReq L t peer.key path.req).2) := by
        rw [← g1]
      simp only [recordFor, hl, hlt, if_true]
      exact main _ i _ e inv g3 rfl (fun k' hk' hne => by rw [g4 k' hk', if_neg hne])
    · simp only [hlt, if_false] at hs
      simp only [recordFor, hl, hlt, if_false]
      have hh : handle L odd cut est t peer path m = ((.reply 500 none [], [.done]), t) := by
        simp only [handle, hpre, hs]
      rw [hh]
      exact ⟨h, fun _ _ _ => rfl, rfl⟩

/-! ## One session alone -/

/-- The record a request of a session works on when there is room. -/
def ownRecord (s : Option Node) (k : List Nat) (r : Req) : Node :=
  match s with
  | some n => if n.cur ≠ r ∧ r ≠ .reset then reinit n r else n
  | none => ⟨k, [], [], r⟩

/-- One action of a session on its own record. -/
def ownStep (odd : Bool → List Nat → List Nat) (cut : Cut) (s : Option Node) :
    Act → (Reply × List Phase) × Option Node
  | .msg est peer path m =>
    match precheck peer path m with
    | some r => (r, s)
    | none =>
      let r := nodeStep odd cut est path m (ownRecord s peer.key path.req)
      ((r.reply, r.evs), some r.node)
  | .connect k => ((.reply 0 none [], []), some (ownRecord s k .reset))
  | .close _ => ((.reply 0 none [], []), none)

def ownRun (odd : Bool → List Nat → List Nat) (cut : Cut) :
    Option Node → List Act → List (List Nat × Reply × List Phase)
  | _, [] => []
  | s, a :: as => (a.key, (ownStep odd cut s a).1) :: ownRun odd cut (ownStep odd cut s a).2 as

/-! ## Room in the table -/

theorem nodup_length_le {α : Type} [DecidableEq α] : ∀ (l m : List α), l.Nodup →
    (∀ x ∈ l, x ∈ m) → l.length ≤ m.length
  | [], _, _, _ => Nat.zero_le _
  | a :: l, m, hn, hs => by
    obtain ⟨ha, hn'⟩ := List.nodup_cons.1 hn
    have hm := hs a (List.mem_cons_self ..)
    have := nodup_length_le l (m.erase a) hn' (fun x hx =>
      (List.mem_erase_of_ne (fun e => ha (by rw [← e]; exact hx))).2 (hs x (List.mem_cons_of_mem _ hx)))
    rw [List.length_erase_of_mem hm] at this
    have : 0 < m.length := List.length_pos_of_mem hm
    simp only [List.length_cons]
    omega

/-- The sessions with a record are among `ks`. -/
def Among (ks : List (List Nat)) (t : Tbl) : Prop :=
  ∀ k, k ≠ [] → look t.slots k ≠ none → k ∈ ks

theorem room {cap : Nat} {t : Tbl} (h : Inv cap t) {ks : List (List Nat)} (ha : Among ks t)
    (hc : ks.length ≤ cap) {k : List Nat} (hk : k ≠ []) (hm : k ∈ ks)
    (hl : look t.slots k = none) : t.cnt < cap := by
  have hcnt := h.count
  rw [List.countP_eq_length_filter] at hcnt
  have hd : ((t.slots.filter (fun n => decide (n.key ≠ []))).map (·.key)).Nodup := by
    rw [List.Nodup, List.pairwise_map, List.pairwise_filter]
    refine h.distinct.imp (fun {a b} hab ha _ => ?_)
    exact hab (by simpa using ha)
  have := nodup_length_le (k :: (t.slots.filter (fun n => decide (n.key ≠ []))).map (·.key)) ks
    (List.nodup_cons.2 ⟨?_, hd⟩) ?_
  · simp only [List.length_cons, List.length_map] at this
    omega
  · intro hmem
    obtain ⟨n, hn, hnk⟩ := List.mem_map.1 hmem
    have hn' := (List.mem_filter.1 hn).1
    have := (look_iff h.distinct hk n).2 ⟨hn', hnk⟩
    rw [hl] at this; cases this
  · intro x hx
    rcases List.mem_cons.1 hx with rfl | hx
    · exact hm
    · obtain ⟨n, hn, rfl⟩ := List.mem_map.1 hx
      obtain ⟨h1, h2⟩ := List.mem_filter.1 hn
      have hne : n.key ≠ [] := by simpa using h2
      exact ha _ hne (by rw [(look_iff h.distinct hne n).2 ⟨h1, rfl⟩]; simp)

/-- One action with room in the table: the session's own record behaves as if it were alone,
the others are as before. -/
theorem act_own {cap : Nat} {t : Tbl} (h : Inv cap t) {L : Libc} (hL : L.Ok) (odd) (cut)
    {ks : List (List Nat)} (ha : Among ks t) (hc : ks.length ≤ cap) (a : Act)
    (hk : a.key ≠ []) (hm : a.key ∈ ks) :
    Inv cap (act L odd cut t a).2 ∧ Among ks (act L odd cut t a).2 ∧
    (∀ k', k' ≠ [] → k' ≠ a.key → look (act L odd cut t a).2.slots k' = look t.slots k') ∧
    (act L odd cut t a).1 = (ownStep odd cut (look t.slots a.key) a).1 ∧
    look (act L odd cut t a).2.slots a.key = (ownStep odd cut (look t.slots a.key) a).2 := by
  have among : ∀ t' : Tbl, (∀ k', k' ≠ [] → k' ≠ a.key → look t'.slots k' = look t.slots k') →
      Among ks t' := by
    intro t' ho k hk' hl
    by_cases e : k = a.key
    · rw [e]; exact hm
    · rw [ho k hk' e] at hl; exact ha k hk' hl
  cases a with
  | msg est peer path m =>
    simp only [Act.key] at hk hm among ⊢
    simp only [act, ownStep]
    cases hp : precheck peer path m with
    | some r =>
      simp only [handle, hp]
      exact ⟨h, ha, fun _ _ _ => by trivial, trivial, trivial⟩
    | none =>
      obtain ⟨s1, s2, s3⟩ := handle_spec h hL odd cut est peer hk path m hp
      have hr : recordFor cap t peer.key path.req =
          some (ownRecord (look t.slots peer.key) peer.key path.req) := by
        cases hl : look t.slots peer.key with
        | some n => simp only [recordFor, ownRecord, hl]
        | none => simp only [recordFor, ownRecord, hl, room h ha hc hk hm hl, if_true]
      rw [hr] at s3
      exact ⟨s1, among _ s2, s2, s3.1, s3.2⟩
  | connect k =>
    simp only [Act.key] at hk hm among ⊢
    simp only [act, ownStep, connected]
    obtain ⟨inv, hs⟩ := getReq_spec h hL hk .reset
    cases hl : look t.slots k with
    | some n =>
      simp only [hl] at hs
      obtain ⟨i, g1, g2, g3, g4⟩ := hs
      have o : ∀ k', k' ≠ [] → k' ≠ k → look (getReq L t k .reset).2.slots k' = look t.slots k' :=
        fun k' hk' hne => by rw [g4 k' hk', if_neg hne]
      refine ⟨inv, among _ o, o, trivial, ?_⟩
      rw [g4 k hk, if_pos rfl]; rfl
    | none =>
      simp only [hl, room h ha hc hk hm hl, if_true] at hs
      obtain ⟨i, g1, g2, g3, g4⟩ := hs
      have o : ∀ k', k' ≠ [] → k' ≠ k → look (getReq L t k .reset).2.slots k' = look t.slots k' :=
        fun k' hk' hne => by rw [g4 k' hk', if_neg hne]
      refine ⟨inv, among _ o, o, trivial, ?_⟩
      rw [g4 k hk, if_pos rfl]; rfl
  | close k =>
    simp only [Act.key] at hk hm among ⊢
    simp only [act, ownStep, closed]
    obtain ⟨inv, hs⟩ := getReq_spec h hL hk .reset
    have q := removeReq_spec inv hL hk
    cases hl : look t.slots k with
    | some n =>
      simp only [hl] at hs
      obtain ⟨i, g1, g2, g3, g4⟩ := hs
      have hkey : (if n.cur ≠ Req.reset ∧ Req.reset ≠ Req.reset then reinit n .reset else n).key = k := by
        simp [look_key hl]
      have e : getReq L t k .reset = (some i, (getReq L t k .reset).2) := by rw [← g1]
      rw [e]
      simp only [g3, hkey]
      have o : ∀ k', k' ≠ [] → k' ≠ k →
          look (removeReq L (getReq L t k .reset).2 k).2.slots k' = look t.slots k' :=
        fun k' hk' hne => by rw [q.2.2.2 k' hk', if_neg hne, g4 k' hk', if_neg hne]
      exact ⟨q.1, among _ o, o, by simp, by rw [q.2.2.2 k hk, if_pos rfl]⟩
    | none =>
      simp only [hl, room h ha hc hk hm hl, if_true] at hs
      obtain ⟨i, g1, g2, g3, g4⟩ := hs
      have e : getReq L t k .reset = (some i, (getReq L t k .reset).2) := by rw [← g1]
      rw [e]
      simp only [g3]
      have o : ∀ k', k' ≠ [] → k' ≠ k →
          look (removeReq L (getReq L t k .reset).2 k).2.slots k' = look t.slots k' :=
        fun k' hk' hne => by rw [q.2.2.2 k' hk', if_neg hne, g4 k' hk', if_neg hne]
      exact ⟨q.1, among _ o, o, by simp, by rw [q.2.2.2 k hk, if_pos rfl]⟩

theorem serve_own {cap : Nat} {L : Libc} (hL : L.Ok) (odd) (cut) {ks : List (List Nat)}
    (hc : ks.length ≤ cap) (k : List Nat) (hk : k ≠ []) : ∀ (as : List Act) (t : Tbl),
    Inv cap t → Among ks t → (∀ a ∈ as, a.key ≠ [] ∧ a.key ∈ ks) →
    (serve L odd cut t as).filter (fun x => decide (x.1 = k)) =
      ownRun odd cut (look t.slots k) (as.filter (fun a => decide (a.key = k)))
  | [], _, _, _, _ => rfl
  | a :: as, t, h, ha, hs => by
    obtain ⟨h1, h2⟩ := hs a (List.mem_cons_self ..)
    obtain ⟨s1, s2, s3, s4, s5⟩ := act_own h hL odd cut ha hc a h1 h2
    have ih := serve_own hL odd cut hc k hk as _ s1 s2 (fun b hb => hs b (List.mem_cons_of_mem _ hb))
    simp only [serve]
    by_cases e : a.key = k
    · rw [List.filter_cons_of_pos (by simpa using e), List.filter_cons_of_pos (by simpa using e)]
      simp only [ownRun]
      rw [ih, s4]
      subst e
      rw [s5]
    · rw [List.filter_cons_of_neg (by simpa using e), List.filter_cons_of_neg (by simpa using e),
        ih, s3 k hk (fun x => e x.symm)]

/-- One action on any table: the records of other sessions are as before, and a session that
has a record and is not closed goes on with it. -/
theorem act_kept {cap : Nat} {t : Tbl} (h : Inv cap t) {L : Libc} (hL : L.Ok) (odd) (cut)
    (a : Act) (hk : a.key ≠ []) :
    Inv cap (act L odd cut t a).2 ∧
    (∀ k', k' ≠ [] → k' ≠ a.key → look (act L odd cut t a).2.slots k' = look t.slots k') ∧
    ∀ n, look t.slots a.key = some n → a ≠ .close a.key →
      (act L odd cut t a).1 = (ownStep odd cut (some n) a).1 ∧
      look (act L odd cut t a).2.slots a.key = (ownStep odd cut (some n) a).2 := by
  cases a with
  | msg est peer path m =>
    simp only [Act.key] at hk ⊢
    simp only [act, ownStep]
    cases hp : precheck peer path m with
    | some r =>
      simp only [handle, hp]
      exact ⟨h, fun _ _ _ => by trivial, fun n hn _ => ⟨trivial, hn⟩⟩
    | none =>
      obtain ⟨s1, s2, s3⟩ := handle_spec h hL odd cut est peer hk path m hp
      refine ⟨s1, s2, fun n hn _ => ?_⟩
      simp only [recordFor, hn] at s3
      exact s3
  | connect k =>
    simp only [Act.key] at hk ⊢
    simp only [act, ownStep, connected]
    obtain ⟨inv, hs⟩ := getReq_spec h hL hk .reset
    refine ⟨inv, ?_, fun n hn _ => ⟨trivial, ?_⟩⟩
    · cases hl : look t.slots k with
      | some n =>
        simp only [hl] at hs
        obtain ⟨i, g1, g2, g3, g4⟩ := hs
        exact fun k' hk' hne => by rw [g4 k' hk', if_neg hne]
      | none =>
        simp only [hl] at hs
        by_cases hlt : t.cnt < cap
        · simp only [hlt, if_true] at hs
          obtain ⟨i, g1, g2, g3, g4⟩ := hs
          exact fun k' hk' hne => by rw [g4 k' hk', if_neg hne]
        · simp only [hlt, if_false] at hs
          rw [hs]; exact fun _ _ _ => rfl
    · simp only [hn] at hs
      obtain ⟨i, g1, g2, g3, g4⟩ := hs
      rw [g4 k hk, if_pos rfl]; rfl
  | close k =>
    simp only [Act.key] at hk ⊢
    simp only [act, ownStep, closed]
    obtain ⟨inv, hs⟩ := getReq_spec h hL hk .reset
    have q := removeReq_spec inv hL hk
    refine ⟨?_, ?_, fun n hn hc => absurd rfl hc⟩
    all_goals
      cases hl : look t.slots k with
      | some n =>
        simp only [hl] at hs
        obtain ⟨i, g1, g2, g3, g4⟩ := hs
        have hkey : (if n.cur ≠ Req.reset ∧ Req.reset ≠ Req.reset then reinit n .reset else n).key = k := by
          simp [look_key hl]
        have e : getReq L t k .reset = (some i, (getReq L t k .reset).2) := by rw [← g1]
        rw [e]
        simp only [g3, hkey]
        first
          | exact q.1
          | exact fun k' hk' hne => by rw [q.2.2.2 k' hk', if_neg hne, g4 k' hk', if_neg hne]
      | none =>
        simp only [hl] at hs
        by_cases hlt : t.cnt < cap
        · simp only [hlt, if_true] at hs
          obtain ⟨i, g1, g2, g3, g4⟩ := hs
          have e : getReq L t k .reset = (some i, (getReq L t k .reset).2) := by rw [← g1]
          rw [e]
          simp only [g3]
          first
            | exact q.1
            | exact fun k' hk' hne => by rw [q.2.2.2 k' hk', if_neg hne, g4 k' hk', if_neg hne]
        · simp only [hlt, if_false] at hs
          rw [hs]
          first
            | exact h
            | exact fun _ _ _ => rfl

theorem serve_kept {cap : Nat} {L : Libc} (hL : L.Ok) (odd) (cut) (k : List Nat) (hk : k ≠ []) :
    ∀ (as : List Act) (t : Tbl) (n : Node), Inv cap t → look t.slots k = some n →
    (∀ a ∈ as, a.key ≠ [] ∧ a ≠ .close k) →
    (serve L odd cut t as).filter (fun x => decide (x.1 = k)) =
      ownRun odd cut (some n) (as.filter (fun a => decide (a.key = k)))
  | [], _, _, _, _, _ => rfl
  | a :: as, t, n, h, hl, hs => by
    obtain ⟨h1, h2⟩ := hs a (List.mem_cons_self ..)
    obtain ⟨s1, s2, s3⟩ := act_kept h hL odd cut a h1
    have hs' := fun b hb => hs b (List.mem_cons_of_mem a hb)
    simp only [serve]
    by_cases e : a.key = k
    · rw [List.filter_cons_of_pos (by simpa using e), List.filter_cons_of_pos (by simpa using e)]
      simp only [ownRun]
      subst e
      obtain ⟨s4, s5⟩ := s3 n hl h2
      have hsome : ∃ n', (ownStep odd cut (some n) a).2 = some n' := by
        cases a with
        | msg est peer path m =>
          simp only [ownStep]
          split
          · exact ⟨_, rfl⟩
          · exact ⟨_, rfl⟩
        | connect k => exact ⟨_, rfl⟩
        | close k => exact absurd rfl h2
      obtain ⟨n', hn'⟩ := hsome
      rw [hn'] at s5
      rw [serve_kept hL odd cut _ hk as _ n' s1 s5 hs', s4, hn']
    · rw [List.filter_cons_of_neg (by simpa using e), List.filter_cons_of_neg (by simpa using e)]
      exact serve_kept hL odd cut k hk as _ n s1 (by rw [s2 k hk (fun x => e x.symm)]; exact hl) hs'

/-! ## The property -/

/-- C94: the CoAP server with room for all its sessions serves each of them as if it were the
only one: in any history of requests to the five resources and of connects and closes of any
sessions, with any answers of the EST layer, the responses and endpoint events of a session are
those of the history in which only its own actions happen. -/
theorem C94_sessions_independent (L : Libc) (hL : L.Ok) (odd) (cut : Cut) (cap : Nat)
    (as : List Act) (ks : List (List Nat)) (hroom : ks.length ≤ cap)
    (hks : ∀ a ∈ as, a.key ≠ [] ∧ a.key ∈ ks) (k : List Nat) (hk : k ≠ []) :
    (serve L odd cut (initTbl cap) as).filter (fun x => decide (x.1 = k)) =
      serve L odd cut (initTbl cap) (as.filter (fun a => decide (a.key = k))) := by
  have ha : Among ks (initTbl cap) := by
    intro k' hk' hl
    have := (init_repr cap).stored k' hk'
    simp only [Map.empty, Option.map_eq_none_iff] at this
    exact absurd this hl
  rw [serve_own hL odd cut hroom k hk as _ (init_inv cap) ha hks]
  have h2 : ∀ a ∈ as.filter (fun a => decide (a.key = k)), a.key ≠ [] ∧ a.key ∈ ks :=
    fun a ham => hks a (List.mem_filter.1 ham).1
  have := serve_own hL odd cut hroom k hk (as.filter (fun a => decide (a.key = k))) _
    (init_inv cap) ha h2
  rw [List.filter_filter] at this
  simp only [Bool.and_self] at this
  rw [← this]
  apply List.filter_eq_self.2
  have own : ∀ (bs : List Act) (t : Tbl), (∀ b ∈ bs, b.key = k) →
      ∀ x ∈ serve L odd cut t bs, decide (x.1 = k) = true := by
    intro bs
    induction bs with
    | nil => intro t _ x hx; cases hx
    | cons b bs ih =>
      intro t hb x hx
      simp only [serve] at hx
      rcases List.mem_cons.1 hx with rfl | hx
      · simpa using hb b (List.mem_cons_self ..)
      · exact ih _ (fun c hc => hb c (List.mem_cons_of_mem _ hc)) x hx
  exact own _ _ (fun b hb => by simpa using (List.mem_filter.1 hb).2)

/-- C94, without any bound on the number of sessions: a session that has its record is served
the same way until it is closed, whatever other sessions do, also when the table is full: two
servers that hold the same record for the session and see the same actions of it give it the
same responses and events. -/
theorem C94_open_session_unaffected (L L' : Libc) (hL : L.Ok) (hL' : L'.Ok) (odd) (cut : Cut)
    (cap cap' : Nat) (t t' : Tbl) (h : Inv cap t) (h' : Inv cap' t') (k : List Nat) (hk : k ≠ [])
    (n : Node) (hn : look t.slots k = some n) (hn' : look t'.slots k = some n)
    (as as' : List Act) (hs : ∀ a ∈ as, a.key ≠ [] ∧ a ≠ .close k)
    (hs' : ∀ a ∈ as', a.key ≠ [] ∧ a ≠ .close k)
    (heq : as.filter (fun a => decide (a.key = k)) = as'.filter (fun a => decide (a.key = k))) :
    (serve L odd cut t as).filter (fun x => decide (x.1 = k)) =
      (serve L' odd cut t' as').filter (fun x => decide (x.1 = k)) := by
  rw [serve_kept hL odd cut k hk as t n h hn hs, serve_kept hL' odd cut k hk as' t' n h' hn' hs', heq]

/-- A session that finds the table full gets 5.00, and nothing changes for the others. -/
theorem C94_full_table (L : Libc) (hL : L.Ok) (odd) (cut : Cut) (cap : Nat) (t : Tbl)
    (h : Inv cap t) (hfull : ∀ n ∈ t.slots, n.key ≠ []) (est : Est) (peer : Peer)
    (hk : peer.key ≠ []) (hnew : ∀ n ∈ t.slots, n.key ≠ peer.key) (path : Path) (m : Msg)
    (hpre : precheck peer path m = none) :
    handle L odd cut est t peer path m = ((.reply 500 none [], [.done]), t) := by
  simp only [handle, hpre, C05_full_table_unchanged L hL cap t h hfull peer.key hk hnew path.req]

/-! ### Examples -/

/-- libcoap's cutting for requests with a Block2 option; whole responses without. -/
def exCut : Cut := fun b d =>
  match b with
  | none => (d, false)
  | some b => ((d.drop (b.num * 2 ^ (b.szx + 4))).take (2 ^ (b.szx + 4)),
      decide ((b.num + 1) * 2 ^ (b.szx + 4) < d.length))

/-- An EST layer: CA certificates `MWFu` ("1an"), attributes, the certificate `AQIDBAUG` for every request,
and the key `TWFu`. -/
def exEst : Est where
  cacerts := (.none, some [77, 87, 70, 117])
  attrs := (.none, some Server.popOnly)
  enroll := exampleCa
  reenroll := exampleCa
  keygen := fun _ => (.none, [65, 81, 73, 68, 66, 65, 85, 71], [84, 87, 70, 117])

def exGet : Msg := ⟨⟨[], [], none, []⟩, none⟩
def exPost : Msg := ⟨⟨[286], [], none, [48, 3, 2, 1, 5]⟩, none⟩
def exPeer (c : Nat) : Peer := ⟨[c], true, true⟩

/-- Three sessions and four slots; the second and third are interleaved with the first. -/
def exHistory : List Act := [
  .connect [49], .msg exEst (exPeer 49) .crts exGet, .msg exEst (exPeer 50) .skg exPost,
  .msg exEst (exPeer 49) .sen exPost, .close [50], .msg exEst (exPeer 51) .att exGet,
  .msg exEst (exPeer 49) .sren exPost]

example : (serve simpleLibc (fun _ l => l) exCut (initTbl 4) exHistory).filter
      (fun x => decide (x.1 = [49])) =
    [([49], .reply 0 none [], []), ([49], .reply 205 (some 281) [49, 97, 110], [.start, .done]),
     ([49], .reply 204 (some 281) [1, 2, 3, 4, 5, 6], [.start, .done]),
     ([49], .reply 204 (some 281) [1, 2, 3, 4, 5, 6], [.start, .done])] := by decide +kernel

example : ∀ a ∈ exHistory, a.key ≠ [] ∧ a.key ∈ [[49], [50], [51]] := by
  intro a ha
  simp only [exHistory, List.mem_cons, List.not_mem_nil, or_false] at ha
  rcases ha with rfl | rfl | rfl | rfl | rfl | rfl | rfl <;>
    exact ⟨by simp [Act.key, exPeer], by simp [Act.key, exPeer]⟩

/-- A full table of one slot: the first session is served, the second gets 5.00. -/
example : serve simpleLibc (fun _ l => l) exCut (initTbl 1)
      [.msg exEst (exPeer 49) .crts exGet, .msg exEst (exPeer 50) .crts exGet,
       .msg exEst (exPeer 49) .skg exPost] =
    [([49], .reply 205 (some 281) [49, 97, 110], [.start, .done]), ([50], .reply 500 none [], [.done]),
     ([49], .reply 204 (some 62) [0x84, 0x19, 1, 0x1c, 0x43, 77, 97, 110, 0x19, 1, 0x19, 0x46,
        1, 2, 3, 4, 5, 6], [.start, .done])] := by decide +kernel

end Verif.Coap
