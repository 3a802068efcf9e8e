import Verif.AttrHelpModel
import Verif.Asn1Props

/-!
# C118: going through the CSR attributes with the helpers

The specification (values, their DER encoding, their OBJECT IDENTIFIERs) is at the
top of `Asn1Lemmas.lean`.
-/
namespace Verif.Asn1
open Verif.Base64 (decode DecRes Bytes enc)

/-! ## Specification -/

mutual
/-- The encoding of the value ends with an OBJECT IDENTIFIER. -/
def Tlv.ends : Tlv → Bool
  | .prim cls tag _ => decide (cls = 0 ∧ tag = 6)
  | .cons _ _ ps => endsOf ps
/-- The same for values in a row. -/
def endsOf : List Tlv → Bool
  | [] => false
  | [t] => t.ends
  | _ :: t :: ts => endsOf (t :: ts)
end

/-! ## Lemmas -/

theorem endsOf_append (a b : List Tlv) (h : b ≠ []) : endsOf (a ++ b) = endsOf b := by
  induction a with
  | nil => rfl
  | cons x a ih =>
    cases hab : a ++ b with
    | nil => simp_all
    | cons y l =>
      rw [List.cons_append, hab]
      simp only [endsOf]
      rw [← hab]
      exact ih

theorem nextOid_fuel : ∀ (n m : Nat) (l : List Nat), l.length < n → l.length < m →
    nextOid n l = nextOid m l
  | 0, _, _, h, _ => by omega
  | _ + 1, 0, _, _, h => by omega
  | n + 1, m + 1, l, hn, hm => by
    unfold nextOid
    by_cases hl : l = []
    · simp [hl]
    · simp only [if_neg hl]
      cases hg : getObject l l.length with
      | stray => rfl
      | bad => rfl
      | ok h =>
        have hu := getObject_used hg
        have e1 : nextOid n (l.drop h.hl) = nextOid m (l.drop h.hl) :=
          nextOid_fuel n m _ (by rw [List.length_drop]; omega) (by rw [List.length_drop]; omega)
        have e2 : nextOid n ((l.drop h.hl).drop h.len) = nextOid m ((l.drop h.hl).drop h.len) :=
          nextOid_fuel n m _ (by rw [List.length_drop, List.length_drop]; omega)
            (by rw [List.length_drop, List.length_drop]; omega)
        simp only [e1, e2]

/-- What one search gives, for any data: nothing behind them is read, and what is
left is a shorter end of them. -/
theorem nextOid_any : ∀ (n : Nat) (l : List Nat), l.length < n →
    nextOid n l ≠ .stray ∧ ∀ o r, nextOid n l = .found o r → r <:+ l ∧ r.length < l.length ∧ o <:+: l
  | 0, _, h => by omega
  | n + 1, l, hn => by
    unfold nextOid
    by_cases hl : l = []
    · simp [hl]
    · simp only [if_neg hl]
      cases hg : getObject l l.length with
      | stray => exact absurd (getObject_stray hg) (by omega)
      | bad => simp
      | ok h =>
        have hu := getObject_used hg
        have hs : l.drop h.hl <:+ l := List.drop_suffix _ _
        have hs2 : (l.drop h.hl).drop h.len <:+ l := (List.drop_suffix _ _).trans hs
        have up : ∀ l', l' <:+ l → l'.length < l.length →
            nextOid n l' ≠ .stray ∧
              ∀ o r, nextOid n l' = .found o r → r <:+ l ∧ r.length < l.length ∧ o <:+: l := by
          intro l' h1 h2
          obtain ⟨k1, k2⟩ := nextOid_any n l' (by omega)
          refine ⟨k1, fun o r e => ?_⟩
          obtain ⟨a, b, c⟩ := k2 o r e
          exact ⟨a.trans h1, by omega, c.trans h1.isInfix⟩
        have e1 := up _ hs (by rw [List.length_drop]; omega)
        have e2 := up _ hs2 (by rw [List.length_drop, List.length_drop]; omega)
        simp only
        split
        · split
          · refine ⟨by simp, fun o r e => ?_⟩
            cases e
            exact ⟨hs2, by rw [List.length_drop, List.length_drop]; omega,
              (List.take_prefix _ _).isInfix.trans hs.isInfix⟩
          · exact e1
        · split
          · exact e1
          · exact e2

/-- The search with just enough fuel. -/
def NextAll (l : List Nat) : Next := nextOid (l.length + 1) l

/-- Data that pass the test of the library. -/
theorem nextOid_scan : ∀ (n : Nat) (l : List Nat) (pop : Bool), l.length < n → (∃ p, scan n l pop = .ok p) →
    nextOid n l ≠ .bad ∧ ∀ o r, nextOid n l = .found o r → ∃ q p, scan n r q = .ok p
  | 0, _, _, h, _ => by omega
  | n + 1, l, pop, hn, ⟨p, hp⟩ => by
    unfold scan at hp
    unfold nextOid
    by_cases hl : l = []
    · simp [hl]
    · simp only [if_neg hl] at hp ⊢
      cases hg : getObject l l.length with
      | stray => rw [hg] at hp; cases hp
      | bad => rw [hg] at hp; cases hp
      | ok h =>
        rw [hg] at hp
        simp only at hp
        have hu := getObject_used hg
        have up : ∀ l' q, l'.length < n → scan n l' q = .ok p →
            nextOid n l' ≠ .bad ∧ ∀ o r, nextOid n l' = .found o r → ∃ q p, scan (n + 1) r q = .ok p := by
          intro l' q h1 h2
          obtain ⟨k1, k2⟩ := nextOid_scan n l' q h1 ⟨p, h2⟩
          refine ⟨k1, fun o r e => ?_⟩
          obtain ⟨q', p', e'⟩ := k2 o r e
          have := (nextOid_any n l' h1).2 o r e
          exact ⟨q', p', by rw [← scan_fuel n (n + 1) r q' (by omega) (by omega)]; exact e'⟩
        have l1 : (l.drop h.hl).length < n := by rw [List.length_drop]; omega
        have l2 : ((l.drop h.hl).drop h.len).length < n := by
          rw [List.length_drop, List.length_drop]; omega
        simp only
        by_cases h6 : h.tag = 6
        · simp only [if_pos h6] at hp ⊢
          by_cases ho : oidOk ((l.drop h.hl).take h.len) = true
          · simp only [if_pos ho] at hp ⊢
            refine ⟨by simp, fun o r e => ?_⟩
            cases e
            exact ⟨_, p, by rw [← scan_fuel n (n + 1) _ _ l2 (by omega)]; exact hp⟩
          · simp only [if_neg ho] at hp ⊢
            exact up _ _ l1 hp
        · simp only [if_neg h6] at hp ⊢
          by_cases hs : h.tag = 16 ∨ h.tag = 17
          · simp only [if_pos hs] at hp ⊢
            exact up _ _ l1 hp
          · simp only [if_neg hs] at hp ⊢
            exact up _ _ l2 hp

/-- What one search gives for values of the kind attributes are made of. -/
theorem next_ders (n : Nat) : ∀ ts, (ders ts).length < n → Wfs ts → Plains ts →
    (oidsOf ts = [] → nextOid n (ders ts) = .nothing) ∧
    (∀ o os, oidsOf ts = o :: os → ∃ ts', Wfs ts' ∧ Plains ts' ∧ oidsOf ts' = os ∧
      nextOid n (ders ts) = .found o (ders ts') ∧ endsOf ts = (decide (ts' = []) || endsOf ts')) := by
  induction n with
  | zero => intro ts h; omega
  | succ n ih =>
    intro ts hn hw hp
    cases ts with
    | nil => exact ⟨fun _ => by simp [ders, nextOid], fun o os h => by simp [oidsOf] at h⟩
    | cons t ts =>
      obtain ⟨hw1, hw2⟩ := hw
      obtain ⟨hp1, hp2⟩ := hp
      have hend : ts ≠ [] → endsOf (t :: ts) = endsOf ts := fun h => endsOf_append [t] ts h
      cases t with
      | prim cls tag c =>
        obtain ⟨h1, h2, h3, h4, h5, h6⟩ := hw1
        obtain ⟨hc0, hq1, hq2⟩ := hp1
        subst hc0
        have e : ders (Tlv.prim 0 tag c :: ts) = ident 0 tag false :: (derLen c.length ++ (c ++ ders ts)) := by
          simp [ders, Tlv.der]
        have hlen : (ders (Tlv.prim 0 tag c :: ts)).length =
            1 + (derLen c.length).length + c.length + (ders ts).length := by
          rw [e]; simp only [List.length_cons, List.length_append]; omega
        have hg := getObject_der 0 tag c.length false h1 h2 h3 (c ++ ders ts)
          (ders (Tlv.prim 0 tag c :: ts)).length (by omega)
        rw [← e] at hg
        have hd : (ders (Tlv.prim 0 tag c :: ts)).drop (1 + (derLen c.length).length) = c ++ ders ts := by
          rw [e, Nat.add_comm 1, List.drop_succ_cons, List.drop_left]
        have hne : ders (Tlv.prim 0 tag c :: ts) ≠ [] := by rw [e]; simp
        unfold nextOid
        simp only [if_neg hne, hg, hd, List.take_left, List.drop_left]
        by_cases ht : tag = 6
        · subst ht
          have hok := (oidOk_iff c).mpr (h5 rfl rfl)
          simp only [if_pos hok, if_true]
          refine ⟨fun h => by simp [oidsOf, Tlv.oids] at h, fun o os h => ?_⟩
          simp only [oidsOf, Tlv.oids, and_self, if_true, List.singleton_append, List.cons.injEq] at h
          refine ⟨ts, hw2, hp2, h.2, by rw [h.1], ?_⟩
          cases ts with
          | nil => simp [endsOf, Tlv.ends]
          | cons x xs => rw [hend (by simp)]; simp
        · have hos : oidsOf (Tlv.prim 0 tag c :: ts) = oidsOf ts := by simp [oidsOf, Tlv.oids, ht]
          rw [if_neg ht, if_neg (by omega), hos]
          obtain ⟨i1, i2⟩ := ih ts (by omega) hw2 hp2
          refine ⟨i1, fun o os h => ?_⟩
          have : ts ≠ [] := by
            rintro rfl
            simp [oidsOf] at h
          rw [hend this]
          exact i2 o os h
      | cons cls tag ps =>
        obtain ⟨h1, h2, h3, h4⟩ := hw1
        obtain ⟨hc0, hq1, hq2⟩ := hp1
        subst hc0
        have e : ders (Tlv.cons 0 tag ps :: ts) =
            ident 0 tag true :: (derLen (ders ps).length ++ ders (ps ++ ts)) := by
          simp [ders, Tlv.der, ders_append]
        have hlen : (ders (Tlv.cons 0 tag ps :: ts)).length =
            1 + (derLen (ders ps).length).length + (ders (ps ++ ts)).length := by
          rw [e]; simp only [List.length_cons, List.length_append]; omega
        have hpl : (ders ps).length ≤ (ders (ps ++ ts)).length := by
          rw [ders_append, List.length_append]; omega
        have hg := getObject_der 0 tag (ders ps).length true h1 h2 h3 (ders (ps ++ ts))
          (ders (Tlv.cons 0 tag ps :: ts)).length (by omega)
        rw [← e] at hg
        have hd : (ders (Tlv.cons 0 tag ps :: ts)).drop (1 + (derLen (ders ps).length).length) =
            ders (ps ++ ts) := by
          rw [e, Nat.add_comm 1, List.drop_succ_cons, List.drop_left]
        have hne : ders (Tlv.cons 0 tag ps :: ts) ≠ [] := by rw [e]; simp
        unfold nextOid
        simp only [if_neg hne, hg, hd]
        rw [if_neg (by omega), if_pos hq1]
        have hos : oidsOf (Tlv.cons 0 tag ps :: ts) = oidsOf (ps ++ ts) := by
          rw [oidsOf_append]; simp [oidsOf, Tlv.oids]
        rw [hos]
        obtain ⟨i1, i2⟩ := ih (ps ++ ts) (by omega) ((Wfs_append _ _).2 ⟨h4, hw2⟩)
          ((Plains_append _ _).2 ⟨hq2, hp2⟩)
        refine ⟨i1, fun o os h => ?_⟩
        have hee : endsOf (Tlv.cons 0 tag ps :: ts) = endsOf (ps ++ ts) := by
          cases ts with
          | nil => simp [endsOf, Tlv.ends]
          | cons x xs => rw [hend (by simp), endsOf_append _ _ (by simp)]
        rw [hee]
        exact i2 o os h

theorem loop_done (nid : List Nat → Int) (k : Nat) (n : Int) : sampleLoop nid k ⟨n, []⟩ = (true, []) := by
  cases k <;> simp [sampleLoop]

theorem get_ders (nid : List Nat → Int) (ts : List Tlv) (hw : Wfs ts) (hp : Plains ts) (n : Int) :
    (oidsOf ts = [] → getAttribute nid ⟨n, ders ts⟩ = .ret .none ⟨n, ders ts⟩) ∧
    (∀ o os, oidsOf ts = o :: os → ∃ ts', Wfs ts' ∧ Plains ts' ∧ oidsOf ts' = os ∧
      getAttribute nid ⟨n, ders ts⟩ = .ret .none ⟨nid o, ders ts'⟩ ∧
      endsOf ts = (decide (ts' = []) || endsOf ts')) := by
  obtain ⟨h1, h2⟩ := next_ders ((ders ts).length + 1) ts (by omega) hw hp
  refine ⟨fun h => ?_, fun o os h => ?_⟩
  · unfold getAttribute
    dsimp only
    rw [h1 h]
  · obtain ⟨ts', a, b, c, d, e⟩ := h2 o os h
    refine ⟨ts', a, b, c, ?_, e⟩
    unfold getAttribute
    dsimp only
    rw [d]

theorem ders_ne {ts : List Tlv} (h : ts ≠ []) : ders ts ≠ [] := by
  cases ts with
  | nil => exact absurd rfl h
  | cons t ts =>
    have := der_pos t
    intro h
    have := congrArg List.length h
    simp only [ders, List.length_append, List.length_nil] at this
    omega

theorem not_ends_ne {ts : List Tlv} {o : List Nat} {os : List (List Nat)} (h : oidsOf ts = o :: os) : ts ≠ [] := by
  rintro rfl
  simp [oidsOf] at h

theorem loop_ends (nid : List Nat → Int) : ∀ (os : List (List Nat)) (ts : List Tlv), oidsOf ts = os → Wfs ts →
    Plains ts → (ts = [] ∨ endsOf ts = true) → ∀ (k : Nat) (n : Int), os.length ≤ k →
    sampleLoop nid k ⟨n, ders ts⟩ = (true, os.map nid) := by
  intro os
  induction os with
  | nil =>
    intro ts h hw hp he k n hk
    rcases he with rfl | he
    · exact loop_done nid k n
    · exfalso
      have : ∀ m, ∀ us : List Tlv, sizeOf us < m → oidsOf us = [] → endsOf us = true → False := by
        intro m
        induction m with
        | zero => intro us h; omega
        | succ m ih =>
          intro us hs ho hu
          cases us with
          | nil => simp [endsOf] at hu
          | cons t us =>
            simp only [oidsOf, List.append_eq_nil_iff] at ho
            cases us with
            | nil =>
              cases t with
              | prim cls tag c =>
                simp only [endsOf, Tlv.ends, decide_eq_true_eq] at hu
                simp [Tlv.oids, hu] at ho
              | cons cls tag ps =>
                simp only [endsOf, Tlv.ends] at hu
                simp only [Tlv.oids] at ho
                simp only [List.cons.sizeOf_spec, Tlv.cons.sizeOf_spec] at hs
                exact ih ps (by omega) ho.1 hu
            | cons x xs =>
              simp only [endsOf] at hu
              simp only [List.cons.sizeOf_spec] at hs ⊢
              exact ih (x :: xs) (by simp only [List.cons.sizeOf_spec]; omega) ho.2 hu
      exact this _ ts (Nat.lt_succ_self _) h he
  | cons o os ih =>
    intro ts h hw hp he k n hk
    obtain ⟨ts', a, b, c, d, e⟩ := (get_ders nid ts hw hp n).2 o os h
    have hne := ders_ne (not_ends_ne h)
    have he' : endsOf ts = true := he.resolve_left (not_ends_ne h)
    rw [he'] at e
    obtain ⟨k, rfl⟩ : ∃ j, k = j + 1 := ⟨k - 1, by simp at hk; omega⟩
    have hi := ih ts' c a b (by simpa using e.symm) k (nid o) (by simpa using hk)
    simp only [sampleLoop, if_neg hne, d, hi, if_true, List.map_cons]

theorem loop_endless (nid : List Nat → Int) : ∀ (os : List (List Nat)) (ts : List Tlv), oidsOf ts = os → Wfs ts →
    Plains ts → ts ≠ [] → endsOf ts = false → ∀ (k : Nat) (n : Int),
    sampleLoop nid (os.length + k) ⟨n, ders ts⟩ =
      (false, os.map nid ++ List.replicate k ((os.map nid).getLast?.getD n)) := by
  intro os
  induction os with
  | nil =>
    intro ts h hw hp hne he k n
    have hd := (get_ders nid ts hw hp n).1 h
    have hne' := ders_ne hne
    simp only [List.length_nil, Nat.zero_add, List.map_nil, List.nil_append, List.getLast?_nil, Option.getD_none]
    induction k with
    | zero => simp [sampleLoop, hne']
    | succ k ih => simp only [sampleLoop, if_neg hne', hd, ih, if_true, List.replicate_succ]
  | cons o os ih =>
    intro ts h hw hp hne he k n
    obtain ⟨ts', a, b, c, d, e⟩ := (get_ders nid ts hw hp n).2 o os h
    rw [he] at e
    have e' : ts' ≠ [] ∧ endsOf ts' = false := by simpa using e.symm
    have hi := ih ts' c a b e'.1 e'.2 k (nid o)
    rw [show (o :: os).length + k = (os.length + k) + 1 by simp; omega]
    simp only [sampleLoop, if_neg (ders_ne hne), d, hi, if_true, List.map_cons, List.cons_append]
    congr 3
    cases os with
    | nil => rfl
    | cons x xs => simp [List.getLast?_cons]

/-! ## The theorems -/

/-- **C118.**  Whatever the data are, a call reads nothing behind them; with success
it gives either the number of an identifier that is in them and a shorter rest, or
nothing new; with an error, nothing new. -/
theorem C118_inside (nid : List Nat → Int) (c : Cursor) :
    ∃ e c', getAttribute nid c = .ret e c' ∧
      (c' = c ∨ (e = .none ∧ c'.rest <:+ c.rest ∧ c'.rest.length < c.rest.length ∧
        ∃ o, o <:+: c.rest ∧ c'.nid = nid o)) := by
  obtain ⟨h1, h2⟩ := nextOid_any (c.rest.length + 1) c.rest (by omega)
  unfold getAttribute
  cases h : nextOid (c.rest.length + 1) c.rest with
  | stray => exact absurd h h1
  | bad => exact ⟨_, _, rfl, .inl rfl⟩
  | nothing => exact ⟨_, _, rfl, .inl rfl⟩
  | found o r =>
    obtain ⟨a, b, d⟩ := h2 o r h
    exact ⟨_, _, rfl, .inr ⟨rfl, a, b, o, d, rfl⟩⟩

/-- **C118.**  Attributes that passed the client's test (`parseAttributes`, C87) never
make a call fail, neither the first nor any later one. -/
theorem C118_accepted_no_error (nid : List Nat → Int) (odd : Bool → List Nat → List Nat) (t : List Nat)
    (pop : Bool) (h : parseAttributes odd t = .ret .none pop) :
    ∃ der, decodeAttributes odd (some t) = .ok der ∧
      ∀ (k : Nat) (n : Int), ∃ c, (Nat.repeat (fun g => match g with
        | Got.ret .none c => getAttribute nid c
        | g => g) k (Got.ret .none ⟨n, der⟩)) = .ret .none c := by
  unfold parseAttributes at h
  unfold decodeAttributes
  dsimp only
  split at h
  · cases h
  · next hl =>
    rw [if_neg hl]
    cases hd : decode odd t (t.length * 2) with
    | ub => rw [hd] at h; cases h
    | ret r der =>
      rw [hd] at h
      cases r with
      | zero => cases h
      | succ r =>
        refine ⟨der, rfl, ?_⟩
        simp only at h
        unfold sanity at h
        split at h
        · cases h
        · have hs : ∃ p, scan (der.length + 1) der false = .ok p := by
            cases hh : scan (der.length + 1) der false with
            | stray => rw [hh] at h; cases h
            | bad => rw [hh] at h; cases h
            | ok p => exact ⟨p, rfl⟩
          obtain ⟨p, hp⟩ := hs
          intro k n
          have key : ∀ k, ∃ c, (Nat.repeat (fun g => match g with
              | Got.ret .none c => getAttribute nid c
              | g => g) k (Got.ret .none ⟨n, der⟩)) = .ret .none c ∧
              ∃ q p, scan (c.rest.length + 1) c.rest q = .ok p := by
            intro k
            induction k with
            | zero => exact ⟨_, rfl, _, _, hp⟩
            | succ k ih =>
              obtain ⟨c, e, q, p, hc⟩ := ih
              simp only [Nat.repeat, e]
              obtain ⟨h1, h2⟩ := nextOid_scan (c.rest.length + 1) c.rest q (by omega) ⟨p, hc⟩
              have h3 := (nextOid_any (c.rest.length + 1) c.rest (by omega))
              unfold getAttribute
              cases hn : nextOid (c.rest.length + 1) c.rest with
              | stray => exact absurd hn h3.1
              | bad => exact absurd hn h1
              | nothing => exact ⟨c, rfl, q, p, hc⟩
              | found o r =>
                obtain ⟨q', p', e'⟩ := h2 o r hn
                have := (h3.2 o r hn).2.1
                refine ⟨⟨nid o, r⟩, rfl, q', p', ?_⟩
                rw [scan_fuel (r.length + 1) (c.rest.length + 1) r q' (by omega) (by omega)]
                exact e'
          obtain ⟨c, e, _⟩ := key k
          exact ⟨c, e⟩

/-- **C118 (partly).**  For attributes made of SEQUENCEs, SETs and primitive values
whose encoding ends with an OBJECT IDENTIFIER, the loop of the sample client sees
the number of every OBJECT IDENTIFIER, in order, each once, and then ends.
Missing: other attributes, see `C118_endless_false`. -/
theorem C118_each_once_partial (nid : List Nat → Int) (ts : List Tlv) (hw : Wfs ts) (hp : Plains ts)
    (he : endsOf ts = true) (k : Nat) (n : Int) (hk : (oidsOf ts).length ≤ k) :
    sampleLoop nid k ⟨n, ders ts⟩ = (true, (oidsOf ts).map nid) :=
  loop_ends nid _ ts rfl hw hp (.inr he) k n hk

/-- **C118 is false.**  When the encoding ends with anything else, a value or an
empty SET for instance, the loop never ends: having seen every OBJECT IDENTIFIER
once, it sees the last of them again and again. -/
theorem C118_endless_false (nid : List Nat → Int) (ts : List Tlv) (hw : Wfs ts) (hp : Plains ts)
    (hne : ts ≠ []) (he : endsOf ts = false) (k : Nat) (n : Int) :
    sampleLoop nid ((oidsOf ts).length + k) ⟨n, ders ts⟩ =
      (false, (oidsOf ts).map nid ++ List.replicate k (((oidsOf ts).map nid).getLast?.getD n)) :=
  loop_endless nid _ ts rfl hw hp hne he k n

/-- Attributes as in RFC 7030 section 4.5.2 that end with an identifier: a name, and
an attribute for the key with the curve as its value. -/
def exEnding : Tlv := seq [oid chpw, seq [oid [0x2A, 3], .cons 0 17 [oid [0x55, 4, 5]]]]

/-- Attributes whose last part is a value. -/
def exOpen : Tlv := seq [oid [0x55, 4, 3], seq [oid [0x2A, 3], .cons 0 17 [.prim 0 19 [65]]]]

theorem exEnding_wf : exEnding.Wf ∧ exEnding.Plain := by
  have o1 := oid_wf [0x2A, 3] (by decide) (by decide) (by unfold Bytes; decide)
  have o2 := oid_wf [0x55, 4, 5] (by decide) (by decide) (by unfold Bytes; decide)
  refine ⟨⟨by omega, by omega, by decide, chpw_wf, ⟨by omega, by omega, by decide, o1,
    ⟨by omega, by omega, by decide, o2, trivial⟩, trivial⟩, trivial⟩, ?_⟩
  simp [exEnding, Tlv.Plain, Plains]

theorem exOpen_wf : exOpen.Wf ∧ exOpen.Plain := by
  have o1 := oid_wf [0x2A, 3] (by decide) (by decide) (by unfold Bytes; decide)
  have o2 := oid_wf [0x55, 4, 3] (by decide) (by decide) (by unfold Bytes; decide)
  refine ⟨⟨by omega, by omega, by decide, o2, ⟨by omega, by omega, by decide, o1,
    ⟨by omega, by omega, by decide, ⟨by omega, by omega, by decide, by omega, fun _ h => by omega,
      by unfold Bytes; decide⟩, trivial⟩, trivial⟩, trivial⟩, ?_⟩
  simp [exOpen, Tlv.Plain, Plains]

example : endsOf [exEnding] = true ∧ endsOf [exOpen] = false ∧
    sampleLoop (fun o => o.length) 5 ⟨0, exEnding.der⟩ = (true, [9, 2, 3]) ∧
    sampleLoop (fun o => o.length) 5 ⟨0, exOpen.der⟩ = (false, [3, 2, 2, 2, 2]) := by decide +kernel

/-- **C118 is false**: the client accepts such attributes from a server, so a server
can keep the sample client busy for ever, adding an attribute to its request in
each round. -/
theorem C118_server_keeps_busy_false (nid : List Nat → Int) (odd : Bool → List Nat → List Nat) :
    parseAttributes odd (enc exOpen.der) = .ret .none false ∧
    sampleStart odd .none (some (enc exOpen.der)) = .ok exOpen.der ∧
    ∀ (k : Nat) (n : Int), (sampleLoop nid (2 + k) ⟨n, exOpen.der⟩).1 = false ∧
      (sampleLoop nid (2 + k) ⟨n, exOpen.der⟩).2 = [nid [0x55, 4, 3], nid [0x2A, 3]] ++ List.replicate k (nid [0x2A, 3]) := by
  have hc : Carries odd (enc exOpen.der) exOpen.der :=
    carries_enc odd _ (der_bytes _ exOpen_wf.1) (by decide)
  have e : ders [exOpen] = exOpen.der := by simp [ders]
  have ho : oidsOf [exOpen] = [[0x55, 4, 3], [0x2A, 3]] := by decide +kernel
  refine ⟨?_, ?_, fun k n => ?_⟩
  · rw [C87_exact_partial odd (enc exOpen.der) [exOpen] ⟨exOpen_wf.1, trivial⟩ ⟨exOpen_wf.2, trivial⟩
      (by simp) (by decide +kernel) (by rw [e]; exact hc)]
    decide +kernel
  · unfold sampleStart decodeAttributes
    rw [if_neg (by simp)]
    dsimp only
    rw [if_neg (by decide +kernel), show decode odd _ _ = _ from hc]
    rfl
  · have := C118_endless_false nid [exOpen] ⟨exOpen_wf.1, trivial⟩ ⟨exOpen_wf.2, trivial⟩ (by simp)
      (by decide +kernel) k n
    rw [e, ho] at this
    rw [show 2 + k = [[0x55, 4, 3], [0x2A, 3]].length + k from rfl, this]
    exact ⟨rfl, rfl⟩

/-- **C118 is false**: at the end of the attributes the function reports success and
leaves the last number in place; its description promises the number 0 and an
error. -/
theorem C118_end_not_reported_false (nid : List Nat → Int) (n : Int) :
    getAttribute nid ⟨n, []⟩ = .ret .none ⟨n, []⟩ ∧
    getAttribute nid ⟨n, [0x31, 0]⟩ = .ret .none ⟨n, [0x31, 0]⟩ := ⟨rfl, rfl⟩

/-- **C118.**  The text a server sends is decoded to the bytes it stands for; texts
of less than four characters and null pointers are refused. -/
theorem C118_decode (odd : Bool → List Nat → List Nat) (der : List Nat) (hb : Bytes der) (hne : der ≠ [])
    (t : List Nat) (ht : t.length < 4) :
    decodeAttributes odd (some (enc der)) = .ok der ∧
    decodeAttributes odd (some t) = .err .invalidParameters ∧
    decodeAttributes odd none = .err .invalidParameters := by
  have hc := carries_enc odd der hb hne
  have hl := Verif.Base64.enc_length der
  have hp : 0 < der.length := List.length_pos_iff.2 hne
  refine ⟨?_, ?_, rfl⟩
  · unfold decodeAttributes
    dsimp only
    rw [if_neg (by omega), show decode odd _ _ = _ from hc]
    obtain ⟨m, hm⟩ : ∃ m, der.length = m + 1 := ⟨der.length - 1, by omega⟩
    rw [hm]
    rfl
  · unfold decodeAttributes
    dsimp only
    rw [if_pos ht]

example : Bytes exOpen.der ∧ exOpen.der ≠ [] := ⟨by unfold Bytes; decide +kernel, by decide⟩

/-- **C118 is false**: when the server has no attributes (which is not an error, the
sample client lets it pass), the sample client gives up because there is nothing
to decode. -/
theorem C118_no_attributes_false (odd : Bool → List Nat → List Nat) :
    sampleStart odd .httpNoContent none = .err .invalidParameters ∧
    sampleStart odd .httpNotFound none = .err .invalidParameters := ⟨rfl, rfl⟩

/-- **C118.**  An attribute is added exactly if there is a request, a number and a
string and OpenSSL takes it; the type of string is the one given, or ASCII. -/
theorem C118_add (req string : Bool) (nid chtype : Int) (added : Int → Bool) :
    (addAttribute req nid string chtype added).1 = .none ↔
      req = true ∧ nid ≠ 0 ∧ string = true ∧ added (if chtype = 0 then 0x1001 else chtype) = true := by
  unfold addAttribute
  cases req <;> cases string <;> by_cases h : nid = 0 <;> simp [h]
  generalize (if chtype = 0 then (4097 : Int) else chtype) = ty
  cases added ty <;> simp

example : (addAttribute true 13 true 0 (fun t => t == 0x1001)) = (.none, some 0x1001) := by decide

end Verif.Asn1
