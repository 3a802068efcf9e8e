import Verif.HttpConnModel

/-! # Lemmas about the HTTP connection model (specification in `HttpConnSpec`) -/
namespace Verif.HttpConn

/-- Specification: the text ends with an empty line. -/
def EndsBlank (p : List Nat) : Prop := ∃ q, p = q ++ [10, 10] ∨ p = q ++ [10, 13, 10]

/-- Specification: characters allowed in a request header. -/
def Allowed (c : Nat) : Prop := c = 10 ∨ c = 13 ∨ (32 ≤ c ∧ c ≤ 126) ∨ 128 ≤ c

/-- Specification: `h` is a complete request header, that is, the shortest prefix
that ends with an empty line, made of allowed characters. -/
structure IsHeader (h : List Nat) : Prop where
  ends : EndsBlank h
  first : ∀ q t, h = q ++ t → t ≠ [] → ¬ EndsBlank q
  chars : ∀ c ∈ h, Allowed c

theorem badChar_iff (c : Nat) : badChar c = true ↔ ¬ Allowed c := by
  simp [badChar, Allowed]; omega

theorem endsBlank_nil : ¬ EndsBlank [] := by
  rintro ⟨q, h | h⟩ <;> simp at h

theorem endsBlank_cons (c : Nat) (q : List Nat) :
    EndsBlank (c :: q) ↔ (c = 10 ∧ q = [10]) ∨ (c = 10 ∧ q = [13, 10]) ∨ EndsBlank q := by
  constructor
  · rintro ⟨p, h | h⟩
    · cases p with
      | nil => simp at h; exact Or.inl h
      | cons a p => simp at h; exact Or.inr (Or.inr ⟨p, Or.inl h.2⟩)
    · cases p with
      | nil => simp at h; exact Or.inr (Or.inl h)
      | cons a p => simp at h; exact Or.inr (Or.inr ⟨p, Or.inr h.2⟩)
  · rintro (⟨rfl, rfl⟩ | ⟨rfl, rfl⟩ | ⟨p, h | h⟩)
    · exact ⟨[], Or.inl rfl⟩
    · exact ⟨[], Or.inr rfl⟩
    · exact ⟨c :: p, Or.inl (by simp [h])⟩
    · exact ⟨c :: p, Or.inr (by simp [h])⟩

theorem isHeader_of_pos (pos : Nat) (l : List Nat) (n : Int) (h : reqLenFrom pos l = n)
    (hn : 0 < n) : ∃ hd rest, l = hd ++ rest ∧ IsHeader hd ∧ n = pos + hd.length := by
  induction l generalizing pos with
  | nil => simp [reqLenFrom] at h; omega
  | cons c l ih =>
    cases l with
    | nil => simp [reqLenFrom] at h; omega
    | cons d rest =>
      rw [reqLenFrom] at h
      split at h
      · omega
      · rename_i hbad
        have hal : Allowed c := by
          rw [badChar_iff] at hbad; exact Classical.not_not.1 hbad
        split at h
        · rename_i hnn
          obtain ⟨rfl, rfl⟩ := hnn
          refine ⟨[10, 10], rest, rfl, ⟨⟨[], Or.inl rfl⟩, ?_, ?_⟩, by simp; omega⟩
          · intro q t hq ht hb
            obtain ⟨p, hp | hp⟩ := hb
            all_goals
              subst hp
              have := congrArg List.length hq
              have hl : 0 < t.length := List.length_pos_iff.2 ht
              simp at this; omega
          · intro c hc; simp at hc; left; exact hc
        · split at h
          · rename_i _ hcrn
            obtain ⟨rfl, rfl, hh⟩ := hcrn
            cases rest with
            | nil => simp at hh
            | cons e r =>
              simp at hh; subst hh
              refine ⟨[10, 13, 10], r, rfl, ⟨⟨[], Or.inr rfl⟩, ?_, ?_⟩, by simp; omega⟩
              · intro q t hq ht hb
                obtain ⟨p, hp | hp⟩ := hb
                · subst hp
                  cases p with
                  | nil => simp at hq
                  | cons a p =>
                    have := congrArg List.length hq
                    have hl : 0 < t.length := List.length_pos_iff.2 ht
                    simp at this; omega
                · subst hp
                  have := congrArg List.length hq
                  have hl : 0 < t.length := List.length_pos_iff.2 ht
                  simp at this; omega
              · intro c hc; simp [Allowed] at hc ⊢; omega
          · rename_i h1 h2
            obtain ⟨hd, r, he, hh, hl⟩ := ih (pos + 1) h
            refine ⟨c :: hd, r, by simp [he], ⟨?_, ?_, ?_⟩, by simp; omega⟩
            · exact (endsBlank_cons c hd).2 (Or.inr (Or.inr hh.ends))
            · intro q t hq ht hb
              cases q with
              | nil => exact endsBlank_nil hb
              | cons a q =>
                simp at hq
                obtain ⟨rfl, hq⟩ := hq
                rcases (endsBlank_cons c q).1 hb with ⟨rfl, rfl⟩ | ⟨rfl, rfl⟩ | hb
                · rw [hq] at he; simp at he; exact h1 ⟨rfl, he.1⟩
                · rw [hq] at he; simp at he
                  exact h2 ⟨rfl, he.1, by simp [he.2]⟩
                · exact hh.first q t hq ht hb
            · intro x hx
              simp at hx
              rcases hx with rfl | hx
              · exact hal
              · exact hh.chars x hx

theorem pos_of_isHeader (hd : List Nat) (h : IsHeader hd) (rest : List Nat) (pos : Nat) :
    reqLenFrom pos (hd ++ rest) = pos + hd.length := by
  induction hd generalizing pos with
  | nil => exact absurd h.ends endsBlank_nil
  | cons c l ih =>
    cases l with
    | nil =>
      exfalso
      rcases (endsBlank_cons c []).1 h.ends with ⟨_, h⟩ | ⟨_, h⟩ | h
      · simp at h
      · simp at h
      · exact endsBlank_nil h
    | cons d l =>
      have hal : badChar c = false := by
        have := h.chars c (by simp)
        cases hb : badChar c with
        | false => rfl
        | true => exact absurd this ((badChar_iff c).1 hb)
      simp only [List.cons_append, reqLenFrom, hal]
      simp only [Bool.false_eq_true, if_false]
      by_cases hnn : c = 10 ∧ d = 10
      · rw [if_pos hnn]
        obtain ⟨rfl, rfl⟩ := hnn
        cases l with
        | nil => simp
        | cons e l' =>
          exact absurd ⟨[], Or.inl rfl⟩ (h.first [10, 10] (e :: l') rfl (by simp))
      · rw [if_neg hnn]
        by_cases hcrn : c = 10 ∧ d = 13 ∧ (l ++ rest).head? = some 10
        · rw [if_pos hcrn]
          obtain ⟨rfl, rfl, hh⟩ := hcrn
          cases l with
          | nil =>
            exfalso
            obtain ⟨q, hq | hq⟩ := h.ends
            · have hl := congrArg List.length hq
              simp at hl
              subst hl; simp at hq
            · have hl := congrArg List.length hq
              simp at hl
          | cons e l' =>
            simp at hh; subst hh
            cases l' with
            | nil => simp
            | cons f l'' =>
              exact absurd ⟨[], Or.inr rfl⟩ (h.first [10, 13, 10] (f :: l'') rfl (by simp))
        · rw [if_neg hcrn]
          have hh : IsHeader (d :: l) := by
            refine ⟨?_, ?_, fun x hx => h.chars x (List.mem_cons_of_mem _ hx)⟩
            · rcases (endsBlank_cons c (d :: l)).1 h.ends with ⟨h1, h2⟩ | ⟨h1, h2⟩ | h
              · simp at h2; exact absurd ⟨h1, h2.1⟩ hnn
              · simp at h2; exact absurd ⟨h1, h2.1, by simp [h2.2]⟩ hcrn
              · exact h
            · intro q t hq ht hb
              exact h.first (c :: q) t (by simp [hq]) ht
                ((endsBlank_cons c q).2 (Or.inr (Or.inr hb)))
          have := ih hh (pos + 1)
          simp only [List.cons_append] at this
          rw [this]; simp; omega

theorem reqLenFrom_values (pos : Nat) (l : List Nat) :
    reqLenFrom pos l = -1 ∨ reqLenFrom pos l = 0 ∨ 0 < reqLenFrom pos l := by
  fun_induction reqLenFrom pos l <;> omega

theorem bad_of_neg (pos : Nat) (l : List Nat) (h : reqLenFrom pos l = -1) :
    ∃ p c d t, l = p ++ c :: d :: t ∧ ¬ Allowed c ∧
      (∀ q s, p = q ++ s → ¬ EndsBlank q) := by
  induction l generalizing pos with
  | nil => simp [reqLenFrom] at h
  | cons c l ih =>
    cases l with
    | nil => simp [reqLenFrom] at h
    | cons d rest =>
      rw [reqLenFrom] at h
      split at h
      · rename_i hb
        refine ⟨[], c, d, rest, rfl, (badChar_iff c).1 hb, ?_⟩
        intro q s hq hb
        have : q = [] := by
          cases q with
          | nil => rfl
          | cons _ _ => simp at hq
        subst this
        exact endsBlank_nil hb
      · split at h
        · omega
        · split at h
          · omega
          · rename_i h1 h2
            obtain ⟨p, c', d', t, he, hc, hq⟩ := ih (pos + 1) h
            refine ⟨c :: p, c', d', t, by simp [he], hc, ?_⟩
            intro q s hqs hb
            cases q with
            | nil => exact endsBlank_nil hb
            | cons a q =>
              simp at hqs
              obtain ⟨rfl, hqs⟩ := hqs
              rcases (endsBlank_cons c q).1 hb with ⟨rfl, rfl⟩ | ⟨rfl, rfl⟩ | hb
              · rw [hqs] at he; simp at he; exact h1 ⟨rfl, he.1⟩
              · rw [hqs] at he; simp at he
                exact h2 ⟨rfl, he.1, by simp [he.2]⟩
              · exact hq q s hqs hb

theorem neg_of_bad (p : List Nat) (c d : Nat) (t : List Nat) (hc : ¬ Allowed c)
    (hq : ∀ q s, p = q ++ s → ¬ EndsBlank q) (pos : Nat) :
    reqLenFrom pos (p ++ c :: d :: t) = -1 := by
  induction p generalizing pos with
  | nil => simp [reqLenFrom, (badChar_iff c).2 hc]
  | cons x p ih =>
    have ih' := ih (fun q s h hb => hq (x :: q) s (by simp [h])
      ((endsBlank_cons x q).2 (Or.inr (Or.inr hb)))) (pos + 1)
    obtain ⟨y, r, hyr⟩ : ∃ y r, p ++ c :: d :: t = y :: r := by
      cases p with
      | nil => exact ⟨c, d :: t, rfl⟩
      | cons y p => exact ⟨y, p ++ c :: d :: t, rfl⟩
    rw [List.cons_append, hyr, reqLenFrom]
    rw [hyr] at ih'
    have hc10 : c ≠ 10 := fun h => hc (Or.inl h)
    have hc13 : c ≠ 13 := fun h => hc (Or.inr (Or.inl h))
    by_cases hb : badChar x = true
    · rw [if_pos hb]
    · rw [if_neg hb]
      by_cases hnn : x = 10 ∧ y = 10
      · exfalso
        obtain ⟨rfl, rfl⟩ := hnn
        cases p with
        | nil => simp at hyr; exact hc10 hyr.1
        | cons z p =>
          simp at hyr
          exact hq [10, 10] p (by simp [hyr.1]) ⟨[], Or.inl rfl⟩
      · rw [if_neg hnn]
        by_cases hcrn : x = 10 ∧ y = 13 ∧ r.head? = some 10
        · exfalso
          obtain ⟨rfl, rfl, hh⟩ := hcrn
          cases p with
          | nil => simp at hyr; exact hc13 hyr.1
          | cons z p =>
            simp at hyr
            obtain ⟨rfl, rfl⟩ := hyr
            cases p with
            | nil => simp at hh; exact hc10 hh
            | cons w p =>
              simp at hh
              exact hq [10, 13, 10] p (by simp [hh]) ⟨[], Or.inr rfl⟩
        · rw [if_neg hcrn]; exact ih'

/-! ## Reading -/

theorem readRequest_spec (bufsiz : Nat) (evs : List Ev) : ∀ (buf sock : List Nat),
    let rr := readRequest bufsiz buf sock evs
    (∃ t, rr.buf = buf ++ t ∧ sock = t ++ rr.sock) ∧
    (buf.length ≤ bufsiz → rr.buf.length ≤ bufsiz) ∧
    (∀ r, rr.res = .ret r → 0 < r → r = getRequestLen rr.buf) ∧
    (∃ u, evs = u ++ rr.evs) := by
  induction evs with
  | nil =>
    intro buf sock
    simp only [readRequest]
    split
    · exact ⟨⟨[], by simp⟩, id, by simp, ⟨[], rfl⟩⟩
    · exact ⟨⟨[], by simp⟩, id, by rintro r ⟨rfl⟩ _; rfl, ⟨[], rfl⟩⟩
  | cons ev evs ih =>
    intro buf sock
    simp only [readRequest]
    split
    · rename_i hlt
      cases ev with
      | err => exact ⟨⟨[], by simp⟩, id, by rintro r ⟨rfl⟩ h; omega, ⟨[.err], rfl⟩⟩
      | avail k =>
        simp only
        have hnle : min k (bufsiz - buf.length) ≤ bufsiz - buf.length := Nat.min_le_right _ _
        generalize min k (bufsiz - buf.length) = n at hnle
        obtain ⟨⟨t, h1, h2⟩, h3, h4, ⟨u, h5⟩⟩ := ih (buf ++ sock.take n) (sock.drop n)
        refine ⟨⟨sock.take n ++ t, by rw [h1]; simp, ?_⟩, ?_, h4,
          ⟨.avail k :: u, by rw [List.cons_append, ← h5]⟩⟩
        · rw [List.append_assoc, ← h2, List.take_append_drop]
        · intro _
          apply h3
          simp; omega
    · exact ⟨⟨[], by simp⟩, id, by rintro r ⟨rfl⟩ _; rfl, ⟨[], rfl⟩⟩

theorem pullLoop_spec (evs : List Ev) : ∀ (len : Nat) (sock : List Nat),
    let r := pullLoop len sock evs
    r.1 ++ r.2.2.1 = sock ∧ r.1.length ≤ len ∧ (r.2.1 = .done → r.1.length = len) ∧
    (.err ∉ evs → r.2.1 ≠ .err) ∧ (∃ u, evs = u ++ r.2.2.2) := by
  induction evs with
  | nil =>
    intro len sock
    simp only [pullLoop]
    split <;> simp_all
  | cons ev evs ih =>
    intro len sock
    simp only [pullLoop]
    split
    · rename_i h; subst h; exact ⟨by simp, by simp, by simp, by simp, ⟨[], rfl⟩⟩
    · cases ev with
      | err => exact ⟨by simp, by simp, by simp, by simp, ⟨[.err], rfl⟩⟩
      | avail k =>
        simp only
        have hl : (sock.take (min k len)).length ≤ len := by simp; omega
        obtain ⟨h1, h2, h3, h4, ⟨u, h5⟩⟩ := ih (len - (sock.take (min k len)).length)
          (sock.drop (min k len))
        refine ⟨?_, ?_, ?_, ?_, ⟨.avail k :: u, by rw [List.cons_append, ← h5]⟩⟩
        · rw [List.append_assoc, h1, List.take_append_drop]
        · rw [List.length_append]; omega
        · intro hd; have := h3 hd; rw [List.length_append]; omega
        · intro he; apply h4; intro hm; exact he (List.mem_cons_of_mem _ hm)

/-- The bytes that are still to be delivered to readers of the connection. -/
def remaining (c : Conn) (sock : List Nat) : List Nat :=
  c.buf.drop (c.requestLen + c.consumed) ++ sock

theorem mgRead_spec (c : Conn) (len : Nat) (sock : List Nat) (evs : List Ev) :
    let m := mgRead c len sock evs
    m.bytes ++ remaining m.conn m.sock = remaining c sock ∧
    m.bytes.length ≤ len ∧
    m.conn = { c with consumed := c.consumed + m.bytes.length } ∧
    ((c.consumed : Int) ≤ c.contentLen → (m.conn.consumed : Int) ≤ c.contentLen) ∧
    (m.fin = .done → m.bytes.length = min len (c.contentLen - c.consumed).toNat) ∧
    (.err ∉ evs → m.fin ≠ .err) ∧ (∃ u, evs = u ++ m.evs) := by
  unfold mgRead
  split
  · rename_i hlt
    simp only
    have hL : (if (c.contentLen - ↑c.consumed).toNat < len then
        (c.contentLen - ↑c.consumed).toNat else len) =
        min len (c.contentLen - c.consumed).toNat := by split <;> omega
    rw [hL]
    have hLle : min len (c.contentLen - c.consumed).toNat ≤ len := Nat.min_le_left _ _
    have hLle2 : min len (c.contentLen - c.consumed).toNat ≤
      (c.contentLen - c.consumed).toNat := Nat.min_le_right _ _
    generalize min len (c.contentLen - c.consumed).toNat = L at hLle hLle2
    generalize hav : c.buf.drop (c.requestLen + c.consumed) = av
    obtain ⟨h1, h2, h3, h4, h5⟩ := pullLoop_spec evs (L - (av.take L).length) sock
    generalize hr : pullLoop (L - (av.take L).length) sock evs = r at h1 h2 h3 h4 h5
    have hbl : (av.take L).length ≤ L := by simp; omega
    refine ⟨?_, ?_, ?_, ?_, ?_, h4, h5⟩
    · -- stream
      simp only [remaining]
      by_cases hcase : L < av.length
      · -- all from the buffer
        have htl : (av.take L).length = L := by simp; omega
        have hr1 : r.1 = [] := by
          have : r.1.length ≤ 0 := by omega
          exact List.eq_nil_of_length_eq_zero (by omega)
        rw [hr1] at h1 ⊢
        simp only [List.nil_append] at h1
        rw [h1, htl, List.append_nil, List.length_nil, Nat.add_zero, ← Nat.add_assoc,
          ← List.drop_drop, hav, ← List.append_assoc, List.take_append_drop]
      · have htl : av.take L = av := List.take_of_length_le (by omega)
        have hd : c.buf.drop (c.requestLen + (c.consumed + (av.take L).length + r.1.length)) = [] := by
          apply List.drop_eq_nil_of_le
          have := congrArg List.length hav
          simp at this
          rw [htl]; omega
        rw [hd, List.nil_append, htl, List.append_assoc, h1, hav]
    · rw [List.length_append]; omega
    · rw [List.length_append, Nat.add_assoc]
    · intro _; omega
    · intro hd; have := h3 hd; rw [List.length_append]; omega
  · rename_i hge
    simp only
    refine ⟨by simp [remaining], by simp, by simp, id, ?_, by simp, ⟨[], rfl⟩⟩
    intro _; simp; omega

end Verif.HttpConn
