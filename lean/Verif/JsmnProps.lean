import Verif.JsmnModel

/-!
# C35, C72: the JSON tokeniser
-/
namespace Verif.Jsmn

/-! ## Scanning functions -/

theorem findDown_some (p : Tok → Bool) (toks : List Tok) :
    ∀ n i, findDown p toks n = some i →
      i < n ∧ (∃ t, toks[i]? = some t ∧ p t = true) ∧
      ∀ j u, i < j → j < n → toks[j]? = some u → p u = false := by
  intro n
  induction n with
  | zero => intro i h; simp [findDown] at h
  | succ n ih =>
    intro i h
    simp only [findDown] at h
    split at h
    · rename_i hn
      obtain ⟨a, b, c⟩ := ih i h
      refine ⟨by omega, b, ?_⟩
      intro j u h1 h2 h3
      by_cases hj : j = n
      · subst hj; rw [hn] at h3; cases h3
      · exact c j u h1 (by omega) h3
    · rename_i t ht
      split at h
      · rename_i hp
        simp at h
        subst h
        refine ⟨by omega, ⟨t, ht, hp⟩, ?_⟩
        intro j u h1 h2
        omega
      · rename_i hp
        obtain ⟨a, b, c⟩ := ih i h
        refine ⟨by omega, b, ?_⟩
        intro j u h1 h2 h3
        by_cases hj : j = n
        · subst hj
          rw [ht] at h3
          simp at h3
          subst h3
          simpa using hp
        · exact c j u h1 (by omega) h3

theorem findDown_none (p : Tok → Bool) (toks : List Tok) :
    ∀ n, findDown p toks n = none → ∀ j u, j < n → toks[j]? = some u → p u = false := by
  intro n
  induction n with
  | zero => intro _ j u h; omega
  | succ n ih =>
    intro h j u h1 h2
    simp only [findDown] at h
    split at h
    · rename_i hn
      by_cases hj : j = n
      · subst hj; rw [hn] at h2; cases h2
      · exact ih h j u (by omega) h2
    · rename_i t ht
      split at h
      · cases h
      · rename_i hp
        by_cases hj : j = n
        · subst hj
          rw [ht] at h2
          simp at h2
          subst h2
          simpa using hp
        · exact ih h j u (by omega) h2

theorem hexRun_le : ∀ (k : Nat) (l : List Nat) (n : Nat), hexRun k l = some n → n ≤ l.length := by
  intro k
  induction k with
  | zero => intro l n h; simp [hexRun] at h; omega
  | succ k ih =>
    intro l n h
    cases l with
    | nil => simp [hexRun] at h; omega
    | cons c l =>
      simp only [hexRun] at h
      split at h
      · simp at h; omega
      · split at h
        · cases hk : hexRun k l with
          | none => rw [hk] at h; simp at h
          | some m =>
            rw [hk] at h
            simp at h
            have := ih l m hk
            simp
            omega
        · cases h

theorem getElem?_drop_add (l : List Nat) (k n : Nat) : (l.drop k)[n]? = l[k + n]? := by
  rw [List.getElem?_drop]

theorem strLen_spec : ∀ (f : Nat) (l : List Nat), l.length < f →
    (∀ n, strLen f l = .ok n → l[n]? = some 34) ∧
    (∀ r, strLen f l = .error r → r = .part ∨ r = .inval) := by
  intro f
  induction f with
  | zero => intro l h; omega
  | succ f ih =>
    intro l hl
    cases l with
    | nil => exact ⟨by intro n h; simp [strLen] at h, by intro r h; simp [strLen] at h; exact Or.inl h.symm⟩
    | cons c rest =>
      simp only [strLen]
      simp at hl
      split
      · exact ⟨by intro n h; simp at h, by intro r h; simp at h; exact Or.inl h.symm⟩
      · split
        · rename_i hc
          refine ⟨?_, by intro r h; simp at h⟩
          intro n h
          simp at h
          subst h
          simp [hc]
        · split
          · cases rest with
            | nil => exact ⟨by intro n h; simp at h, by intro r h; simp at h; exact Or.inl h.symm⟩
            | cons e rest' =>
              simp at hl
              simp only
              split
              · obtain ⟨i1, i2⟩ := ih rest' (by omega)
                cases hs : strLen f rest' with
                | ok m =>
                  refine ⟨?_, by intro r h; simp at h⟩
                  intro n h
                  simp at h
                  subst h
                  simpa using i1 m hs
                | error r' =>
                  refine ⟨by intro n h; simp at h, ?_⟩
                  intro r h
                  simp at h
                  subst h
                  exact i2 _ hs
              · split
                · cases hk : hexRun 4 rest' with
                  | none => exact ⟨by intro n h; simp at h, by intro r h; simp at h; exact Or.inr h.symm⟩
                  | some k =>
                    simp only
                    have hle := hexRun_le 4 rest' k hk
                    obtain ⟨i1, i2⟩ := ih (rest'.drop k) (by rw [List.length_drop]; omega)
                    cases hs : strLen f (rest'.drop k) with
                    | ok m =>
                      refine ⟨?_, by intro r h; simp at h⟩
                      intro n h
                      simp at h
                      subst h
                      have := i1 m hs
                      rw [List.getElem?_drop] at this
                      have e : m + 2 + k = (k + m) + 1 + 1 := by omega
                      rw [e, List.getElem?_cons_succ, List.getElem?_cons_succ]
                      exact this
                    | error r' =>
                      refine ⟨by intro n h; simp at h, ?_⟩
                      intro r h
                      simp at h
                      subst h
                      exact i2 _ hs
                · exact ⟨by intro n h; simp at h, by intro r h; simp at h; exact Or.inr h.symm⟩
          · obtain ⟨i1, i2⟩ := ih rest (by omega)
            cases hs : strLen f rest with
            | ok m =>
              refine ⟨?_, by intro r h; simp at h⟩
              intro n h
              simp at h
              subst h
              simpa using i1 m hs
            | error r' =>
              refine ⟨by intro n h; simp at h, ?_⟩
              intro r h
              simp at h
              subst h
              exact i2 _ hs

theorem primLen_le : ∀ (l : List Nat) (n : Nat), primLen l = some n → n ≤ l.length := by
  intro l
  induction l with
  | nil => intro n h; simp [primLen] at h; omega
  | cons c l ih =>
    intro n h
    simp only [primLen] at h
    split at h
    · simp at h; omega
    · split at h
      · simp at h; omega
      · split at h
        · cases h
        · cases hk : primLen l with
          | none => rw [hk] at h; simp at h
          | some m =>
            rw [hk] at h
            simp at h
            have := ih m hk
            simp
            omega

/-- The characters of a primitive: printable, no blank, none of `:` `,` `]` `}`. -/
def PrimChar (c : Nat) : Prop := 32 < c ∧ c < 127 ∧ c ∉ [58, 44, 93, 125]

theorem primLen_chars : ∀ (l : List Nat) (n : Nat), primLen l = some n →
    ∀ k, k < n → ∃ c, l[k]? = some c ∧ PrimChar c := by
  intro l
  induction l with
  | nil => intro n h; simp [primLen] at h; omega
  | cons c l ih =>
    intro n h
    simp only [primLen] at h
    split at h
    · simp at h; omega
    · split at h
      · simp at h; omega
      · split at h
        · cases h
        · rename_i h1 h2 h3
          cases hk : primLen l with
          | none => rw [hk] at h; simp at h
          | some m =>
            rw [hk] at h
            simp at h
            intro k hkn
            cases k with
            | zero =>
              refine ⟨c, rfl, ?_⟩
              simp [primEnd] at h2
              refine ⟨by omega, by omega, ?_⟩
              simp
              omega
            | succ k => exact ih m hk k (by omega)

/-! ## The invariant -/

/-- What a token says about the text read so far (up to `pos`). -/
def TokOk (js : List Nat) (pos : Nat) (t : Tok) : Prop :=
  match t.ty with
  | .string => ∃ e, t.fin = some e ∧ 1 ≤ t.start ∧ t.start ≤ e ∧ e < pos ∧
      js[t.start - 1]? = some 34 ∧ js[e]? = some 34
  | .primitive => ∃ e, t.fin = some e ∧ t.start < e ∧ e ≤ pos ∧
      ∀ k, t.start ≤ k → k < e → ∃ c, js[k]? = some c ∧ PrimChar c
  | .object => js[t.start]? = some 123 ∧ t.start < pos ∧
      ∀ e, t.fin = some e → t.start + 2 ≤ e ∧ e ≤ pos ∧ js[e - 1]? = some 125
  | .array => js[t.start]? = some 91 ∧ t.start < pos ∧
      ∀ e, t.fin = some e → t.start + 2 ≤ e ∧ e ≤ pos ∧ js[e - 1]? = some 93

theorem TokOk.mono {js : List Nat} {p q : Nat} {t : Tok} (h : TokOk js p t) (hq : p ≤ q) :
    TokOk js q t := by
  cases ht : t.ty with
  | string =>
    simp only [TokOk, ht] at h ⊢
    obtain ⟨e, a, b, c, d, f⟩ := h
    exact ⟨e, a, b, c, by omega, f⟩
  | primitive =>
    simp only [TokOk, ht] at h ⊢
    obtain ⟨e, a, b, c, d⟩ := h
    exact ⟨e, a, b, by omega, d⟩
  | object =>
    simp only [TokOk, ht] at h ⊢
    obtain ⟨a, b, c⟩ := h
    exact ⟨a, by omega, fun e he => ⟨(c e he).1, by have := (c e he).2.1; omega, (c e he).2.2⟩⟩
  | array =>
    simp only [TokOk, ht] at h ⊢
    obtain ⟨a, b, c⟩ := h
    exact ⟨a, by omega, fun e he => ⟨(c e he).1, by have := (c e he).2.1; omega, (c e he).2.2⟩⟩

/-- The end of a finished token is not behind the reading position. -/
theorem TokOk.fin_le {js : List Nat} {p : Nat} {t : Tok} (h : TokOk js p t) (e : Nat)
    (he : t.fin = some e) : t.start ≤ e ∧ e ≤ p := by
  cases ht : t.ty with
  | string =>
    simp only [TokOk, ht] at h
    obtain ⟨e', a, b, c, d, f⟩ := h
    rw [he] at a; simp at a; omega
  | primitive =>
    simp only [TokOk, ht] at h
    obtain ⟨e', a, b, c⟩ := h
    rw [he] at a; simp at a; omega
  | object =>
    simp only [TokOk, ht] at h
    have := h.2.2 e he
    omega
  | array =>
    simp only [TokOk, ht] at h
    have := h.2.2 e he
    omega

theorem TokOk.start_lt {js : List Nat} {p : Nat} {t : Tok} (h : TokOk js p t) : t.start < p := by
  cases ht : t.ty with
  | string =>
    simp only [TokOk, ht] at h
    obtain ⟨e', a, b, c, d, f⟩ := h
    omega
  | primitive =>
    simp only [TokOk, ht] at h
    obtain ⟨e', a, b, c⟩ := h
    omega
  | object =>
    simp only [TokOk, ht] at h
    exact h.2.1
  | array =>
    simp only [TokOk, ht] at h
    exact h.2.1

/-- Two tokens in this order: the second begins later, and lies either behind the first or
inside it. -/
def InOrder (a b : Tok) : Prop :=
  a.start < b.start ∧ ∀ e, a.fin = some e → e ≤ b.start ∨ ∃ e', b.fin = some e' ∧ e' < e

/-- The invariant of the main loop. -/
structure Inv (js : List Nat) (num pos : Nat) (st : St) : Prop where
  room : st.toks.length ≤ num
  inText : pos ≤ js.length
  sup : ∀ s, st.super = some s → s < st.toks.length
  tok : ∀ (i : Nat) (t : Tok), st.toks[i]? = some t → TokOk js pos t
  ord : ∀ (i j : Nat) (a b : Tok), i < j → st.toks[i]? = some a → st.toks[j]? = some b → InOrder a b

/-- The same tokens but for their counters. -/
def SameToks (ts us : List Tok) : Prop :=
  ts.length = us.length ∧
  ∀ (i : Nat) (t : Tok), ts[i]? = some t →
    ∃ u, us[i]? = some u ∧ t.ty = u.ty ∧ t.start = u.start ∧ t.fin = u.fin

theorem SameToks.refl (ts : List Tok) : SameToks ts ts := ⟨rfl, fun _ t h => ⟨t, h, rfl, rfl, rfl⟩⟩

theorem bumpAt_some (ts : List Tok) (i : Nat) (h : i < ts.length) :
    ∃ us, bumpAt ts i = some us ∧ SameToks us ts := by
  unfold bumpAt
  rw [List.getElem?_eq_getElem h]
  refine ⟨_, rfl, by simp, ?_⟩
  intro j t ht
  rw [List.getElem?_set] at ht
  split at ht
  · rename_i hij
    subst hij
    simp at ht
    refine ⟨ts[i], List.getElem?_eq_getElem h, ?_⟩
    rw [← ht]
    exact ⟨rfl, rfl, rfl⟩
  · exact ⟨t, ht, rfl, rfl, rfl⟩

theorem bump_some (st : St) (h : ∀ s, st.super = some s → s < st.toks.length) :
    ∃ us, bump st = some us ∧ SameToks us st.toks := by
  unfold bump
  cases hs : st.super with
  | none => exact ⟨_, rfl, SameToks.refl _⟩
  | some s => exact bumpAt_some _ s (h s hs)

theorem TokOk.same {js : List Nat} {p : Nat} {t u : Tok} (h : TokOk js p u) (h1 : t.ty = u.ty)
    (h2 : t.start = u.start) (h3 : t.fin = u.fin) : TokOk js p t := by
  unfold TokOk at h ⊢
  rw [h1, h2, h3]
  exact h

theorem Inv.same {js : List Nat} {num pos : Nat} {st : St} (h : Inv js num pos st)
    (ts : List Tok) (hs : SameToks ts st.toks) (sup : Option Nat)
    (hsup : ∀ s, sup = some s → s < st.toks.length) : Inv js num pos { toks := ts, super := sup } := by
  obtain ⟨h1, h2, h3, h4, h5⟩ := h
  obtain ⟨hl, hc⟩ := hs
  refine ⟨by simp only; omega, h2, by simp only; rw [hl]; exact hsup, ?_, ?_⟩
  · intro i t ht
    obtain ⟨u, hu, a, b, c⟩ := hc i t ht
    exact (h4 i u hu).same a b c
  · intro i j a b hij ha hb
    obtain ⟨u, hu, a1, a2, a3⟩ := hc i a ha
    obtain ⟨v, hv, b1, b2, b3⟩ := hc j b hb
    have := h5 i j u v hij hu hv
    unfold InOrder at this ⊢
    rw [a2, a3, b2, b3]
    exact this

theorem Inv.add {js : List Nat} {num pos : Nat} {st : St} (h : Inv js num pos st)
    (t : Tok) (pos' : Nat) (hp : pos ≤ pos') (hp' : pos' ≤ js.length) (ht : TokOk js pos' t)
    (hst : pos ≤ t.start) (hroom : st.toks.length < num) (sup : Option Nat)
    (hsup : ∀ s, sup = some s → s < st.toks.length + 1) :
    Inv js num pos' { toks := st.toks ++ [t], super := sup } := by
  obtain ⟨h1, h2, h3, h4, h5⟩ := h
  refine ⟨by simp; omega, hp', by simpa using hsup, ?_, ?_⟩
  · intro i u hu
    simp only at hu
    by_cases hi : i < st.toks.length
    · rw [List.getElem?_append_left hi] at hu
      exact (h4 i u hu).mono hp
    · rw [List.getElem?_append_right (by omega)] at hu
      have : i - st.toks.length = 0 := by
        by_cases h0 : i - st.toks.length = 0
        · exact h0
        · rw [List.getElem?_eq_none (by simp; omega)] at hu; cases hu
      rw [this] at hu
      simp at hu
      rw [← hu]; exact ht
  · intro i j a b hij ha hb
    simp only at ha hb
    by_cases hj : j < st.toks.length
    · rw [List.getElem?_append_left hj] at hb
      rw [List.getElem?_append_left (by omega)] at ha
      exact h5 i j a b hij ha hb
    · rw [List.getElem?_append_right (by omega)] at hb
      have hj0 : j - st.toks.length = 0 := by
        by_cases h0 : j - st.toks.length = 0
        · exact h0
        · rw [List.getElem?_eq_none (by simp; omega)] at hb; cases hb
      rw [hj0] at hb
      simp at hb
      subst hb
      rw [List.getElem?_append_left (by omega)] at ha
      have := h4 i a ha
      exact ⟨by have := this.start_lt; omega, fun e he => Or.inl (by have := this.fin_le e he; omega)⟩

theorem Inv.move {js : List Nat} {num pos : Nat} {st : St} (h : Inv js num pos st) (pos' : Nat)
    (hp : pos ≤ pos') (hp' : pos' ≤ js.length) (sup : Option Nat)
    (hsup : ∀ s, sup = some s → s < st.toks.length) :
    Inv js num pos' { st with super := sup } := by
  obtain ⟨h1, h2, h3, h4, h5⟩ := h
  exact ⟨h1, hp', hsup, fun i t ht => (h4 i t ht).mono hp, h5⟩

theorem opening_inv {js : List Nat} {num pos : Nat} {st : St} (h : Inv js num pos st) (c : Nat)
    (hc : js[pos]? = some c) (hb : c = 123 ∨ c = 91) :
    (∃ st', opening num pos (if c = 123 then .object else .array) st = .ok st' ∧
      Inv js num (pos + 1) st') ∨
    opening num pos (if c = 123 then .object else .array) st = .error .nomem := by
  have hpos : pos < js.length := by
    rcases Nat.lt_or_ge pos js.length with h | h
    · exact h
    · rw [List.getElem?_eq_none h] at hc; cases hc
  unfold opening
  by_cases hr : st.toks.length ≥ num
  · rw [if_pos hr]; exact Or.inr rfl
  · rw [if_neg hr]
    left
    obtain ⟨us, hu, hs⟩ := bump_some st h.sup
    rw [hu]
    refine ⟨_, rfl, ?_⟩
    have h1 := h.same us hs none (by simp)
    have hl : us.length = st.toks.length := hs.1
    refine h1.add _ (pos + 1) (by omega) hpos ?_ (Nat.le_refl _) (by simp only; omega) _ ?_
    · rcases hb with rfl | rfl
      · simp [TokOk, hc]
      · simp [TokOk, hc]
    · intro s hs'; simp at hs'; simp only; omega

theorem closing_inv {js : List Nat} {num pos : Nat} {st : St} (h : Inv js num pos st) (c : Nat)
    (hc : js[pos]? = some c) (hb : c = 125 ∨ c = 93) :
    (∃ st', closing pos (if c = 125 then .object else .array) st = .ok st' ∧
      Inv js num (pos + 1) st') ∨
    closing pos (if c = 125 then .object else .array) st = .error .inval := by
  have hpos : pos < js.length := by
    rcases Nat.lt_or_ge pos js.length with h | h
    · exact h
    · rw [List.getElem?_eq_none h] at hc; cases hc
  unfold closing
  cases hf : findDown isOpen st.toks st.toks.length with
  | none => exact Or.inr rfl
  | some i =>
    obtain ⟨f1, ⟨t, f2, f3⟩, f4⟩ := findDown_some _ _ _ _ hf
    simp only [f2]
    by_cases hty : t.ty ≠ (if c = 125 then Ty.object else Ty.array)
    · rw [if_pos hty]; exact Or.inr rfl
    · rw [if_neg hty]
      left
      refine ⟨_, rfl, ?_⟩
      have hty' : t.ty = (if c = 125 then Ty.object else Ty.array) := by
        by_cases q : t.ty = (if c = 125 then Ty.object else Ty.array)
        · exact q
        · exact absurd q hty
      have htk := h.tok i t f2
      have hopen : t.fin = none := by simpa [isOpen] using f3
      have hnew : TokOk js (pos + 1) { t with fin := some (pos + 1) } := by
        have hlt := htk.start_lt
        rcases hb with rfl | rfl
        · simp at hty'
          simp only [TokOk, hty'] at htk ⊢
          refine ⟨htk.1, by omega, ?_⟩
          intro e he
          simp at he
          subst he
          exact ⟨by omega, by omega, by simpa using hc⟩
        · simp at hty'
          simp only [TokOk, hty'] at htk ⊢
          refine ⟨htk.1, by omega, ?_⟩
          intro e he
          simp at he
          subst he
          exact ⟨by omega, by omega, by simpa using hc⟩
      refine ⟨by simp only [List.length_set]; exact h.room, hpos, ?_, ?_, ?_⟩
      · intro s hs
        simp only at hs
        have := (findDown_some _ _ _ _ hs).1
        simp only [List.length_set]
        omega
      · intro j u hu
        simp only [List.getElem?_set] at hu
        split at hu
        · simp at hu; rw [← hu]; exact hnew
        · exact (h.tok j u hu).mono (by omega)
      · intro j k a b hjk ha hb'
        simp only [List.getElem?_set] at ha hb'
        split at ha
        · rename_i hij
          simp at ha
          rw [if_neg (by omega)] at hb'
          have hkl : k < st.toks.length := by
            rcases Nat.lt_or_ge k st.toks.length with q | q
            · exact q
            · rw [List.getElem?_eq_none q] at hb'; cases hb'
          have ho := h.ord i k t b (by omega) f2 hb'
          subst ha
          refine ⟨ho.1, ?_⟩
          intro e he
          simp at he
          subst he
          right
          have hcl := f4 k b (by omega) hkl hb'
          cases hbf : b.fin with
          | none => simp [isOpen, hbf] at hcl
          | some e' =>
            have := (h.tok k b hb').fin_le e' hbf
            exact ⟨e', rfl, by omega⟩
        · rename_i hij
          split at hb'
          · rename_i hik
            simp at hb'
            subst hb'
            subst hik
            have ho := h.ord j i a t hjk ha f2
            refine ⟨ho.1, ?_⟩
            intro e he
            rcases ho.2 e he with q | ⟨e', q, _⟩
            · exact Or.inl q
            · rw [hopen] at q; cases q
          · exact h.ord j k a b hjk ha hb'

theorem scalar_inv {js : List Nat} {num pos : Nat} {st : St} (h : Inv js num pos st) (t : Tok)
    (pos' : Nat) (hp : pos ≤ pos') (hp' : pos' ≤ js.length) (ht : TokOk js pos' t)
    (hst : pos ≤ t.start) :
    (∃ st', scalar num t st = .ok st' ∧ Inv js num pos' st') ∨ scalar num t st = .error .nomem := by
  unfold scalar alloc
  by_cases hr : st.toks.length ≥ num
  · rw [if_pos hr]; exact Or.inr rfl
  · rw [if_neg hr]
    left
    simp only
    have h1 := h.add t pos' hp hp' ht hst (by omega) st.super
      (fun s hs => by have := h.sup s hs; omega)
    obtain ⟨us, hu, hs⟩ := bump_some _ h1.sup
    rw [hu]
    exact ⟨_, rfl, h1.same us hs st.super h1.sup⟩

theorem comma_inv {js : List Nat} {num pos : Nat} {st : St} (h : Inv js num pos st)
    (hp' : pos + 1 ≤ js.length) :
    ∃ st', comma st = .ok st' ∧ Inv js num (pos + 1) st' := by
  unfold comma
  cases hs : st.super with
  | none =>
    refine ⟨st, rfl, ?_⟩
    have := h.move (pos + 1) (by omega) hp' st.super h.sup
    exact this
  | some s =>
    have hl := h.sup s hs
    simp only [List.getElem?_eq_getElem hl]
    split
    · exact ⟨st, rfl, h.move (pos + 1) (by omega) hp' st.super h.sup⟩
    · split
      · exact ⟨st, rfl, h.move (pos + 1) (by omega) hp' st.super h.sup⟩
      · rename_i i hf
        refine ⟨_, rfl, h.move (pos + 1) (by omega) hp' (some i) ?_⟩
        intro s' hs'
        simp at hs'
        subst hs'
        exact (findDown_some _ _ _ _ hf).1

/-- The main loop keeps the invariant, ends, and never uses a token it did not allocate. -/
theorem loop_inv (js : List Nat) (num : Nat) : ∀ (f pos : Nat) (rest : List Nat) (st : St),
    rest.length < f → rest = js.drop pos → Inv js num pos st →
    (∃ st' pos', loop num f pos rest st = .ok st' ∧ Inv js num pos' st') ∨
    loop num f pos rest st = .error .nomem ∨ loop num f pos rest st = .error .inval ∨
    loop num f pos rest st = .error .part := by
  intro f
  induction f with
  | zero => intro pos rest st h; omega
  | succ f ih =>
    intro pos rest st hf hr h
    cases rest with
    | nil => exact Or.inl ⟨st, pos, rfl, h⟩
    | cons c rest =>
      have hc : js[pos]? = some c := by
        have := congrArg (fun l => l[0]?) hr
        simp [List.getElem?_drop] at this
        exact this.symm
      have hpos : pos < js.length := by
        rcases Nat.lt_or_ge pos js.length with h | h
        · exact h
        · rw [List.getElem?_eq_none h] at hc; cases hc
      have hr1 : rest = js.drop (pos + 1) := by
        have := congrArg (List.drop 1) hr
        simpa [List.drop_drop] using this
      simp at hf
      simp only [loop]
      split
      · exact Or.inl ⟨st, pos, rfl, h⟩
      · split
        · rename_i hb
          rcases opening_inv h c hc hb with ⟨st', e, hi⟩ | e
          · rw [e]; exact ih (pos + 1) rest st' (by omega) hr1 hi
          · rw [e]; exact Or.inr (Or.inl rfl)
        · split
          · rename_i hb
            rcases closing_inv h c hc hb with ⟨st', e, hi⟩ | e
            · rw [e]; exact ih (pos + 1) rest st' (by omega) hr1 hi
            · rw [e]; exact Or.inr (Or.inr (Or.inl rfl))
          · split
            · rename_i h34
              obtain ⟨s1, s2⟩ := strLen_spec (rest.length + 1) rest (by omega)
              cases hs : strLen (rest.length + 1) rest with
              | error r =>
                rcases s2 r hs with rfl | rfl
                · exact Or.inr (Or.inr (Or.inr rfl))
                · exact Or.inr (Or.inr (Or.inl rfl))
              | ok n =>
                have hq := s1 n hs
                have hn : n < rest.length := by
                  rcases Nat.lt_or_ge n rest.length with q | q
                  · exact q
                  · rw [List.getElem?_eq_none q] at hq; cases hq
                have hlen : rest.length = js.length - (pos + 1) := by rw [hr1, List.length_drop]
                have hq' : js[pos + 1 + n]? = some 34 := by
                  rw [hr1, List.getElem?_drop] at hq; exact hq
                simp only
                have ht : TokOk js (pos + 1 + n + 1)
                    { ty := .string, start := pos + 1, fin := some (pos + 1 + n), size := 0 } := by
                  simp only [TokOk]
                  refine ⟨pos + 1 + n, rfl, by omega, by omega, by omega, ?_, hq'⟩
                  rw [Nat.add_sub_cancel, hc, h34]
                rcases scalar_inv h _ (pos + 1 + n + 1) (by omega) (by omega) ht
                  (by simp only; omega) with ⟨st', e, hi⟩ | e
                · rw [e]
                  refine ih _ _ st' (by rw [List.length_drop]; omega) ?_ hi
                  rw [hr1, List.drop_drop]
                  congr 1
                · rw [e]; exact Or.inr (Or.inl rfl)
            · split
              · exact ih (pos + 1) rest st (by omega) hr1
                  (h.move (pos + 1) (by omega) hpos st.super h.sup)
              · split
                · refine ih (pos + 1) rest (colon st) (by omega) hr1 ?_
                  refine h.move (pos + 1) (by omega) hpos _ ?_
                  intro s hs
                  split at hs
                  · cases hs
                  · simp at hs; omega
                · split
                  · obtain ⟨st', e, hi⟩ := comma_inv h hpos
                    rw [e]
                    exact ih (pos + 1) rest st' (by omega) hr1 hi
                  · cases hp : primLen (c :: rest) with
                    | none => exact Or.inr (Or.inr (Or.inl rfl))
                    | some n =>
                      have hn := primLen_le _ _ hp
                      simp at hn
                      have h1 : 1 ≤ n := by
                        simp only [primLen] at hp
                        split at hp
                        · contradiction
                        · split at hp
                          · rename_i hpe
                            exfalso
                            simp [primEnd] at hpe
                            omega
                          · split at hp
                            · cases hp
                            · cases hk : primLen rest with
                              | none => rw [hk] at hp; simp at hp
                              | some m => rw [hk] at hp; simp at hp; omega
                      have hlen : rest.length = js.length - (pos + 1) := by rw [hr1, List.length_drop]
                      simp only
                      have ht : TokOk js (pos + n)
                          { ty := .primitive, start := pos, fin := some (pos + n), size := 0 } := by
                        simp only [TokOk]
                        refine ⟨pos + n, rfl, by omega, by omega, ?_⟩
                        intro k hk1 hk2
                        obtain ⟨x, hx, hx2⟩ := primLen_chars _ _ hp (k - pos) (by omega)
                        rw [hr, List.getElem?_drop] at hx
                        exact ⟨x, by rw [← hx]; congr 1; omega, hx2⟩
                      rcases scalar_inv h _ (pos + n) (by omega) (by omega) ht
                        (Nat.le_refl _) with ⟨st', e, hi⟩ | e
                      · rw [e]
                        refine ih _ _ st' (by rw [List.length_drop]; simp; omega) ?_ hi
                        rw [hr, List.drop_drop]
                      · rw [e]; exact Or.inr (Or.inl rfl)

/-! ## C35 -/

theorem inv_init (js : List Nat) (num : Nat) : Inv js num 0 { toks := [], super := none } :=
  ⟨by simp, by omega, by simp, by simp, by simp⟩

/-- C35: on every text and for every size of the token array `jsmn_parse` ends without using a
token outside the allocated part of the array; if it succeeds, the count it returns is the
number of tokens allocated, at most the size of the array. -/
theorem C35_memory (num : Nat) (js : List Nat) :
    parse num js ≠ .undef ∧ parse num js ≠ .hang ∧
    ∀ n ts, parse num js = .ok n ts → n = ts.length ∧ n ≤ num := by
  unfold parse
  rcases loop_inv js num (js.length + 1) 0 js _ (by omega) (by simp) (inv_init js num) with
    ⟨st, pos, e, hi⟩ | e | e | e
  · rw [e]
    simp only
    cases findDown isOpen st.toks st.toks.length with
    | some i => exact ⟨by simp, by simp, by simp⟩
    | none =>
      refine ⟨by simp, by simp, ?_⟩
      intro n ts h
      simp at h
      obtain ⟨h1, h2⟩ := h
      subst h2
      have := hi.room
      exact ⟨h1.symm, by omega⟩
  all_goals
    rw [e]
    exact ⟨by simp, by simp, by simp⟩

/-- What a finished token says about the text. -/
def Span (js : List Nat) (t : Tok) (e : Nat) : Prop :=
  t.fin = some e ∧ t.start ≤ e ∧ e ≤ js.length ∧
  match t.ty with
  | .string => 1 ≤ t.start ∧ js[t.start - 1]? = some 34 ∧ js[e]? = some 34
  | .primitive => t.start < e ∧ ∀ k, t.start ≤ k → k < e → ∃ c, js[k]? = some c ∧ PrimChar c
  | .object => t.start + 2 ≤ e ∧ js[t.start]? = some 123 ∧ js[e - 1]? = some 125
  | .array => t.start + 2 ≤ e ∧ js[t.start]? = some 91 ∧ js[e - 1]? = some 93

/-- C35: if `jsmn_parse` succeeds every token lies in the text, strings between two quotes,
primitives being runs of printable characters, objects and arrays from bracket to matching kind of bracket; and the tokens come in the order of
their starts, each one behind or completely inside every earlier one. -/
theorem C35_tokens (num : Nat) (js : List Nat) (n : Nat) (ts : List Tok)
    (h : parse num js = .ok n ts) :
    (∀ t ∈ ts, ∃ e, Span js t e) ∧
    (∀ (i j : Nat) (a b : Tok), i < j → ts[i]? = some a → ts[j]? = some b →
      a.start < b.start ∧ ∃ ea eb, a.fin = some ea ∧ b.fin = some eb ∧
        (ea ≤ b.start ∨ eb < ea)) := by
  unfold parse at h
  rcases loop_inv js num (js.length + 1) 0 js _ (by omega) (by simp) (inv_init js num) with
    ⟨st, pos, e, hi⟩ | e | e | e
  · rw [e] at h
    simp only at h
    cases hf : findDown isOpen st.toks st.toks.length with
    | some i => rw [hf] at h; simp at h
    | none =>
      rw [hf] at h
      simp at h
      obtain ⟨_, h2⟩ := h
      subst h2
      have closed : ∀ (i : Nat) (t : Tok), st.toks[i]? = some t → ∃ e, t.fin = some e := by
        intro i t ht
        have hl : i < st.toks.length := by
          rcases Nat.lt_or_ge i st.toks.length with q | q
          · exact q
          · rw [List.getElem?_eq_none q] at ht; cases ht
        have := findDown_none _ _ _ hf i t hl ht
        cases hx : t.fin with
        | none => simp [isOpen, hx] at this
        | some e => exact ⟨e, rfl⟩
      refine ⟨?_, ?_⟩
      · intro t ht
        obtain ⟨i, hi'⟩ := List.getElem?_of_mem ht
        obtain ⟨e, he⟩ := closed i t hi'
        have hk := hi.tok i t hi'
        have hle := hk.fin_le e he
        have hp := hi.inText
        refine ⟨e, he, hle.1, by omega, ?_⟩
        cases hty : t.ty with
        | string =>
          simp only [TokOk, hty] at hk ⊢
          obtain ⟨e', a, b, c, d, f, g⟩ := hk
          rw [he] at a; simp at a; subst a
          exact ⟨b, f, g⟩
        | primitive =>
          simp only [TokOk, hty] at hk ⊢
          obtain ⟨e', a, b, c, d⟩ := hk
          rw [he] at a; simp at a; subst a
          exact ⟨b, d⟩
        | object =>
          simp only [TokOk, hty] at hk ⊢
          exact ⟨(hk.2.2 e he).1, hk.1, (hk.2.2 e he).2.2⟩
        | array =>
          simp only [TokOk, hty] at hk ⊢
          exact ⟨(hk.2.2 e he).1, hk.1, (hk.2.2 e he).2.2⟩
      · intro i j a b hij ha hb
        obtain ⟨ea, hea⟩ := closed i a ha
        obtain ⟨eb, heb⟩ := closed j b hb
        have ho := hi.ord i j a b hij ha hb
        refine ⟨ho.1, ea, eb, hea, heb, ?_⟩
        rcases ho.2 ea hea with q | ⟨e', q1, q2⟩
        · exact Or.inl q
        · rw [heb] at q1; simp at q1; subst q1; exact Or.inr q2
  all_goals
    rw [e] at h
    simp at h

example : parse 100 [123, 34, 97, 34, 58, 32, 91, 49, 44, 32, 34, 98, 34, 93, 125] = .ok 5
    [⟨.object, 0, some 15, 1⟩, ⟨.string, 2, some 3, 1⟩, ⟨.array, 6, some 14, 2⟩,
     ⟨.primitive, 7, some 8, 0⟩, ⟨.string, 11, some 12, 0⟩] := by decide +kernel
example : parse 4 [123, 34, 97, 34, 58, 32, 91, 49, 44, 32, 34, 98, 34, 93, 125] = .nomem := by decide +kernel
example : parse 100 [123, 34, 97, 34, 58, 32, 91, 49, 44, 32, 34, 98, 34, 125, 125] = .inval := by decide +kernel
example : parse 100 [123, 34, 97, 34, 58, 32, 91, 49, 44, 32, 34, 98, 34, 93] = .part := by decide +kernel

/-! ## C72: JSON texts and their tokens -/

/-- White space. -/
def Ws (w : List Nat) : Prop := ∀ c ∈ w, c = 9 ∨ c = 13 ∨ c = 10 ∨ c = 32

/-- The inside of a JSON string: characters other than NUL, quote and backslash, the eight short
escapes and `\uXXXX` with four hexadecimal digits. -/
inductive StrBody : List Nat → Prop
  | nil : StrBody []
  | char (c : Nat) (s : List Nat) : c ≠ 0 → c ≠ 34 → c ≠ 92 → StrBody s → StrBody (c :: s)
  | esc (e : Nat) (s : List Nat) : e ∈ [34, 92, 47, 98, 102, 110, 114, 116] → StrBody s → StrBody (92 :: e :: s)
  | uni (a b c d : Nat) (s : List Nat) : (∀ x ∈ [a, b, c, d], x ∈ [48, 49, 50, 51, 52, 53, 54, 55, 56, 57, 97, 98, 99, 100, 101, 102, 65, 66, 67, 68, 69, 70]) →
      StrBody s → StrBody (92 :: 117 :: a :: b :: c :: d :: s)

/-- A number or literal: printable characters that have no meaning in JSON. -/
def PrimText (s : List Nat) : Prop :=
  s ≠ [] ∧ ∀ c ∈ s, 32 < c ∧ c < 127 ∧ c ∉ [34, 44, 58, 91, 93, 123, 125]

/-- Brackets and kind of objects (`true`) and arrays (`false`). -/
def lb (o : Bool) : Nat := if o then 123 else 91
def rb (o : Bool) : Nat := if o then 125 else 93
def cty (o : Bool) : Ty := if o then .object else .array

mutual
/-- `Val p t ts`: the text `t` at position `p` is a JSON value, and `ts` is the list of the values
and keys in it, in the order of the text, with where they begin and end.  The counter of an
array or object is the number of its elements or members, that of a key is 1. -/
inductive Val : Nat → List Nat → List Tok → Prop
  | str (p : Nat) (s : List Nat) : StrBody s →
      Val p (34 :: (s ++ [34])) [⟨.string, p + 1, some (p + 1 + s.length), 0⟩]
  | prim (p : Nat) (s : List Nat) : PrimText s →
      Val p s [⟨.primitive, p, some (p + s.length), 0⟩]
  | empty (o : Bool) (p : Nat) (w : List Nat) : Ws w →
      Val p (lb o :: (w ++ [rb o])) [⟨cty o, p, some (p + w.length + 2), 0⟩]
  | cont (o : Bool) (p : Nat) (t : List Nat) (n : Nat) (ts : List Tok) : Items o (p + 1) t n ts →
      Val p (lb o :: (t ++ [rb o])) (⟨cty o, p, some (p + t.length + 2), n⟩ :: ts)
/-- An element of an array or a member of an object. -/
inductive Item : Bool → Nat → List Nat → List Tok → Prop
  | val (p : Nat) (t : List Nat) (ts : List Tok) : Val p t ts → Item false p t ts
  | member (p : Nat) (s w1 w2 t : List Nat) (ts : List Tok) : StrBody s → Ws w1 → Ws w2 →
      Val (p + 1 + s.length + 1 + w1.length + 1 + w2.length) t ts →
      Item true p (34 :: (s ++ 34 :: (w1 ++ 58 :: (w2 ++ t))))
        (⟨.string, p + 1, some (p + 1 + s.length), 1⟩ :: ts)
/-- Elements or members separated by commas, and their number. -/
inductive Items : Bool → Nat → List Nat → Nat → List Tok → Prop
  | one (o : Bool) (p : Nat) (w1 t w2 : List Nat) (ts : List Tok) : Ws w1 → Ws w2 →
      Item o (p + w1.length) t ts → Items o p (w1 ++ (t ++ w2)) 1 ts
  | more (o : Bool) (p : Nat) (w1 t w2 r : List Nat) (n : Nat) (ts rs : List Tok) : Ws w1 → Ws w2 →
      Item o (p + w1.length) t ts →
      Items o (p + w1.length + t.length + w2.length + 1) r n rs →
      Items o p (w1 ++ (t ++ (w2 ++ 44 :: r))) (n + 1) (ts ++ rs)
end

/-! ### Running the loop over a part of the text -/

/-- From one point the loop gets to another. -/
def Reach (num : Nat) (p : Nat) (r : List Nat) (st : St) (p' : Nat) (r' : List Nat) (st' : St) : Prop :=
  ∀ f, r.length < f → ∃ f', r'.length < f' ∧ loop num f p r st = loop num f' p' r' st'

theorem Reach.refl (num p : Nat) (r : List Nat) (st : St) : Reach num p r st p r st :=
  fun f h => ⟨f, h, rfl⟩

theorem Reach.trans {num p p' p'' : Nat} {r r' r'' : List Nat} {st st' st'' : St}
    (h : Reach num p r st p' r' st') (h' : Reach num p' r' st' p'' r'' st'') :
    Reach num p r st p'' r'' st'' := by
  intro f hf
  obtain ⟨f1, h1, e1⟩ := h f hf
  obtain ⟨f2, h2, e2⟩ := h' f1 h1
  exact ⟨f2, h2, e1.trans e2⟩

theorem Reach.cast {num p p' q : Nat} {r r' : List Nat} {st st' : St}
    (h : Reach num p r st p' r' st') (e : p' = q) : Reach num p r st q r' st' := e ▸ h

theorem reach_ws (num : Nat) : ∀ (w : List Nat) (p : Nat) (r : List Nat) (st : St), Ws w →
    Reach num p (w ++ r) st (p + w.length) r st := by
  intro w
  induction w with
  | nil => intro p r st _; exact Reach.refl num p r st
  | cons c w ih =>
    intro p r st h
    have hc := h c (by simp)
    have hw : Ws w := fun d hd => h d (by simp [hd])
    have one : Reach num p (c :: w ++ r) st (p + 1) (w ++ r) st := by
      intro f hf
      cases f with
      | zero => omega
      | succ f =>
        refine ⟨f, by simp at hf ⊢; omega, ?_⟩
        rcases hc with rfl | rfl | rfl | rfl <;> rfl
    refine (one.trans (ih (p + 1) r st hw)).cast ?_
    simp; omega

theorem hexRun_four (a b c d : Nat) (rest : List Nat)
    (h : ∀ x ∈ [a, b, c, d], x ∈ [48, 49, 50, 51, 52, 53, 54, 55, 56, 57, 97, 98, 99, 100, 101, 102, 65, 66, 67, 68, 69, 70]) :
    hexRun 4 (a :: b :: c :: d :: rest) = some 4 := by
  have q : ∀ x ∈ [48, 49, 50, 51, 52, 53, 54, 55, 56, 57, 97, 98, 99, 100, 101, 102, 65, 66, 67, 68, 69, 70], isHex x = true ∧ x ≠ 0 := by decide
  have ha := q a (h a (by simp))
  have hb := q b (h b (by simp))
  have hc := q c (h c (by simp))
  have hd := q d (h d (by simp))
  simp [hexRun, ha, hb, hc, hd]

theorem strLen_body {s : List Nat} (h : StrBody s) : ∀ (f : Nat) (rest : List Nat),
    s.length < f → strLen f (s ++ 34 :: rest) = .ok s.length := by
  induction h with
  | nil =>
    intro f rest hf
    cases f with
    | zero => omega
    | succ f => simp [strLen]
  | char c s h0 h1 h2 _ ih =>
    intro f rest hf
    cases f with
    | zero => omega
    | succ f =>
      simp at hf
      simp [strLen, h0, h1, h2, ih f rest (by omega)]
  | esc e s he _ ih =>
    intro f rest hf
    cases f with
    | zero => omega
    | succ f =>
      simp at hf
      have q : ∀ x ∈ [34, 92, 47, 98, 102, 110, 114, 116], isEsc x = true := by decide
      simp [strLen, q e he, ih f rest (by omega)]
  | uni a b c d s hx _ ih =>
    intro f rest hf
    cases f with
    | zero => omega
    | succ f =>
      simp at hf
      have e : isEsc 117 = false := by decide
      have k := hexRun_four a b c d (s ++ 34 :: rest) hx
      simp only [List.cons_append, strLen, e, k]
      simp [ih f rest (by omega)]

/-- What may follow a value. -/
def Follow (r : List Nat) : Prop := r = [] ∨ ∃ c r', r = c :: r' ∧ primEnd c = true

theorem primLen_text (s r : List Nat) (h : ∀ c ∈ s, 32 < c ∧ c < 127 ∧ c ∉ [34, 44, 58, 91, 93, 123, 125])
    (hr : Follow r) : primLen (s ++ r) = some s.length := by
  induction s with
  | nil =>
    rcases hr with rfl | ⟨c, r', rfl, hc⟩
    · rfl
    · simp [primLen, hc]
  | cons c s ih =>
    have hc := h c (by simp)
    have hp : primEnd c = false := by
      have := hc.2.2
      simp at this
      simp [primEnd]
      omega
    have i := ih (fun d hd => h d (by simp [hd]))
    simp only [List.cons_append, primLen]
    rw [if_neg (by omega), if_neg (by simp [hp]), if_neg (by omega), i]
    rfl

/-! ### Counters -/

def inc (n : Nat) (t : Tok) : Tok := { t with size := t.size + n }

/-- The effect of `tokens[toksuper].size++`. -/
def bumpL (s : Option Nat) (T : List Tok) : List Tok :=
  match s with
  | none => T
  | some i => T.modify i (inc 1)

theorem set_eq_modify (T : List Tok) (i : Nat) (t : Tok) (h : T[i]? = some t) (f : Tok → Tok) :
    T.set i (f t) = T.modify i f := by
  induction T generalizing i with
  | nil => simp at h
  | cons a T ih =>
    cases i with
    | zero => simp at h; simp [h]
    | succ i => simp at h; simp [ih i h]

theorem bump_eq (T : List Tok) (s : Option Nat) (h : ∀ i, s = some i → i < T.length) :
    bump { toks := T, super := s } = some (bumpL s T) := by
  cases s with
  | none => rfl
  | some i =>
    have hi := h i rfl
    simp only [bump, bumpAt, List.getElem?_eq_getElem hi, bumpL]
    congr 1
    exact set_eq_modify T i _ (List.getElem?_eq_getElem hi) (inc 1)

theorem modify_append (T us : List Tok) (i : Nat) (h : i < T.length) (f : Tok → Tok) :
    (T ++ us).modify i f = T.modify i f ++ us := by
  induction T generalizing i with
  | nil => simp at h
  | cons a T ih =>
    cases i with
    | zero => simp
    | succ i => simp at h; simp [ih i h]

theorem modify_last (T us : List Tok) (t : Tok) (f : Tok → Tok) :
    (T ++ t :: us).modify T.length f = T ++ f t :: us := by
  induction T with
  | nil => simp
  | cons a T ih => simp [ih]

theorem set_last (T us : List Tok) (t u : Tok) : (T ++ t :: us).set T.length u = T ++ u :: us := by
  induction T with
  | nil => simp
  | cons a T ih => simp [ih]

theorem bumpL_length (s : Option Nat) (T : List Tok) : (bumpL s T).length = T.length := by
  cases s <;> simp [bumpL]

theorem bumpL_append (s : Option Nat) (T us : List Tok) (h : ∀ i, s = some i → i < T.length) :
    bumpL s (T ++ us) = bumpL s T ++ us := by
  cases s with
  | none => rfl
  | some i => exact modify_append T us i (h i rfl) _

/-! ### The search for the open token -/

def lastOpen (T : List Tok) : Option Nat := findDown isOpen T T.length

theorem findDown_append (p : Tok → Bool) (A B : List Tok) : ∀ n, n ≤ A.length →
    findDown p (A ++ B) n = findDown p A n := by
  intro n
  induction n with
  | zero => intro _; rfl
  | succ n ih =>
    intro h
    simp only [findDown]
    rw [List.getElem?_append_left (by omega), ih (by omega)]

theorem findDown_skip (p : Tok → Bool) (A : List Tok) : ∀ (B : List Tok),
    (∀ u ∈ B, p u = false) → findDown p (A ++ B) (A ++ B).length = findDown p A A.length := by
  intro B hB
  have key : ∀ n, n ≤ B.length → findDown p (A ++ B) (A.length + n) = findDown p A A.length := by
    intro n
    induction n with
    | zero => intro _; exact findDown_append p A B _ (Nat.le_refl _)
    | succ n ih =>
      intro h
      rw [← Nat.add_assoc]
      simp only [findDown]
      rw [List.getElem?_append_right (by omega), Nat.add_sub_cancel_left,
        List.getElem?_eq_getElem (by omega)]
      simp only
      rw [if_neg (by simp [hB B[n] (List.getElem_mem _)])]
      exact ih (by omega)
  rw [List.length_append]
  exact key B.length (Nat.le_refl _)

theorem findDown_last (p : Tok → Bool) (A B : List Tok) (t : Tok) (ht : p t = true)
    (hB : ∀ u ∈ B, p u = false) :
    findDown p (A ++ t :: B) (A ++ t :: B).length = some A.length := by
  have e : A ++ t :: B = (A ++ [t]) ++ B := by simp
  rw [e, findDown_skip p (A ++ [t]) B hB]
  simp [findDown, ht]

theorem findDown_modify (p : Tok → Bool) (n : Nat) (i : Nat) (T : List Tok)
    (hp : ∀ t, p (inc n t) = p t) : ∀ m, findDown p (T.modify i (inc n)) m = findDown p T m := by
  intro m
  induction m with
  | zero => rfl
  | succ m ih =>
    simp only [findDown]
    rw [List.getElem?_modify]
    cases h : T[m]? with
    | none => simp [ih]
    | some t =>
      by_cases hi : i = m
      · subst hi
        simp [hp, ih]
      · simp [hi, ih]

theorem findDown_bumpL (p : Tok → Bool) (s : Option Nat) (T : List Tok)
    (hp : ∀ t, p (inc 1 t) = p t) (m : Nat) : findDown p (bumpL s T) m = findDown p T m := by
  cases s with
  | none => rfl
  | some i => exact findDown_modify p 1 i T hp m

theorem lastOpen_bumpL (s : Option Nat) (T : List Tok) : lastOpen (bumpL s T) = lastOpen T := by
  unfold lastOpen
  rw [bumpL_length]
  exact findDown_bumpL isOpen s T (fun _ => rfl) _

theorem lastOpen_skip (A B : List Tok) (hB : ∀ u ∈ B, isOpen u = false) :
    lastOpen (A ++ B) = lastOpen A := findDown_skip isOpen A B hB

/-! ### Steps of the loop -/

theorem scalar_eq (num : Nat) (t : Tok) (T : List Tok) (s : Option Nat) (hn : T.length < num)
    (hs : ∀ i, s = some i → i < T.length) :
    scalar num t { toks := T, super := s } = .ok { toks := bumpL s T ++ [t], super := s } := by
  unfold scalar alloc
  rw [if_neg (by simp only; omega)]
  simp only
  rw [bump_eq (T ++ [t]) s (fun i h => by have := hs i h; simp; omega), bumpL_append s T [t] hs]

theorem reach_str (num p : Nat) (s r : List Nat) (T : List Tok) (sup : Option Nat)
    (hb : StrBody s) (hn : T.length < num) (hs : ∀ i, sup = some i → i < T.length) :
    Reach num p (34 :: (s ++ 34 :: r)) { toks := T, super := sup } (p + 1 + s.length + 1) r
      { toks := bumpL sup T ++ [⟨.string, p + 1, some (p + 1 + s.length), 0⟩], super := sup } := by
  intro f hf
  cases f with
  | zero => omega
  | succ f =>
    refine ⟨f, by simp at hf; omega, ?_⟩
    have e1 := strLen_body hb ((s ++ 34 :: r).length + 1) r (by simp; omega)
    have e2 : (s ++ 34 :: r).drop (s.length + 1) = r := by
      rw [List.drop_append]
      simp
    have hl : loop num (f + 1) p (34 :: (s ++ 34 :: r)) { toks := T, super := sup } =
        (match strLen ((s ++ 34 :: r).length + 1) (s ++ 34 :: r) with
        | .error r => .error r
        | .ok n =>
          match scalar num { ty := .string, start := p + 1, fin := some (p + 1 + n), size := 0 }
            { toks := T, super := sup } with
          | .error r => .error r
          | .ok st => loop num f (p + 1 + n + 1) ((s ++ 34 :: r).drop (n + 1)) st) := rfl
    rw [hl, e1]
    simp only
    rw [scalar_eq num _ T sup hn hs, e2]

theorem reach_prim (num p : Nat) (s r : List Nat) (T : List Tok) (sup : Option Nat)
    (hb : PrimText s) (hr : Follow r) (hn : T.length < num)
    (hs : ∀ i, sup = some i → i < T.length) :
    Reach num p (s ++ r) { toks := T, super := sup } (p + s.length) r
      { toks := bumpL sup T ++ [⟨.primitive, p, some (p + s.length), 0⟩], super := sup } := by
  obtain ⟨h0, hc⟩ := hb
  intro f hf
  cases f with
  | zero => omega
  | succ f =>
    cases s with
    | nil => exact absurd rfl h0
    | cons c s =>
      refine ⟨f, by simp at hf; omega, ?_⟩
      have e1 := primLen_text (c :: s) r hc hr
      have h1 := hc c (by simp)
      have h2 := h1.2.2
      simp at h2
      simp only [List.cons_append] at e1 ⊢
      simp only [loop]
      rw [if_neg (by omega), if_neg (by omega), if_neg (by omega), if_neg (by omega),
        if_neg (by omega), if_neg (by omega), if_neg (by omega), e1]
      simp only
      rw [scalar_eq num _ T sup hn hs]
      have e2 : (c :: (s ++ r)).drop (c :: s).length = r := by simp
      simp only
      rw [e2]

theorem reach_open (num p : Nat) (o : Bool) (r : List Nat) (T : List Tok) (sup : Option Nat)
    (hn : T.length < num) (hs : ∀ i, sup = some i → i < T.length) :
    Reach num p (lb o :: r) { toks := T, super := sup } (p + 1) r
      { toks := bumpL sup T ++ [⟨cty o, p, none, 0⟩], super := some T.length } := by
  intro f hf
  cases f with
  | zero => omega
  | succ f =>
    refine ⟨f, by simp at hf; omega, ?_⟩
    have ho : opening num p (cty o) { toks := T, super := sup } =
        .ok { toks := bumpL sup T ++ [⟨cty o, p, none, 0⟩], super := some T.length } := by
      unfold opening
      rw [if_neg (by simp only; omega), bump_eq T sup hs]
      simp only [bumpL_length]
    cases o with
    | true =>
      have hl : loop num (f + 1) p (lb true :: r) { toks := T, super := sup } =
          (match opening num p (cty true) { toks := T, super := sup } with
          | .error e => .error e
          | .ok st => loop num f (p + 1) r st) := rfl
      rw [hl, ho]
    | false =>
      have hl : loop num (f + 1) p (lb false :: r) { toks := T, super := sup } =
          (match opening num p (cty false) { toks := T, super := sup } with
          | .error e => .error e
          | .ok st => loop num f (p + 1) r st) := rfl
      rw [hl, ho]

theorem reach_close (num p q : Nat) (o : Bool) (r : List Nat) (T ts : List Tok) (n : Nat)
    (sup : Option Nat) (hc : ∀ u ∈ ts, isOpen u = false) :
    Reach num p (rb o :: r) { toks := T ++ ⟨cty o, q, none, n⟩ :: ts, super := sup } (p + 1) r
      { toks := T ++ ⟨cty o, q, some (p + 1), n⟩ :: ts, super := lastOpen T } := by
  intro f hf
  cases f with
  | zero => omega
  | succ f =>
    refine ⟨f, by simp at hf; omega, ?_⟩
    have ho : closing p (cty o) { toks := T ++ ⟨cty o, q, none, n⟩ :: ts, super := sup } =
        .ok { toks := T ++ ⟨cty o, q, some (p + 1), n⟩ :: ts, super := lastOpen T } := by
      unfold closing
      simp only
      rw [findDown_last isOpen T ts ⟨cty o, q, none, n⟩ rfl hc]
      simp only
      have hg : (T ++ (⟨cty o, q, none, n⟩ : Tok) :: ts)[T.length]? = some ⟨cty o, q, none, n⟩ := by
        simp
      rw [hg]
      simp only [ne_eq, not_true_eq_false, if_false]
      rw [set_last]
      have e : findDown isOpen (T ++ (⟨cty o, q, some (p + 1), n⟩ : Tok) :: ts) (T.length + 1)
          = lastOpen T := by
        have e1 : T ++ (⟨cty o, q, some (p + 1), n⟩ : Tok) :: ts
            = (T ++ [⟨cty o, q, some (p + 1), n⟩]) ++ ts := by simp
        rw [e1, findDown_append isOpen _ ts _ (by simp)]
        simp only [findDown]
        simp [isOpen, lastOpen]
        exact findDown_append isOpen T _ _ (Nat.le_refl _)
      rw [e]
    cases o with
    | true =>
      have hl : ∀ st, loop num (f + 1) p (rb true :: r) st =
          (match closing p (cty true) st with
          | .error e => .error e
          | .ok st => loop num f (p + 1) r st) := fun _ => rfl
      rw [hl, ho]
    | false =>
      have hl : ∀ st, loop num (f + 1) p (rb false :: r) st =
          (match closing p (cty false) st with
          | .error e => .error e
          | .ok st => loop num f (p + 1) r st) := fun _ => rfl
      rw [hl, ho]

theorem reach_colon (num p : Nat) (r : List Nat) (T : List Tok) (k : Tok) (sup : Option Nat) :
    Reach num p (58 :: r) { toks := T ++ [k], super := sup } (p + 1) r
      { toks := T ++ [k], super := some T.length } := by
  intro f hf
  cases f with
  | zero => omega
  | succ f =>
    refine ⟨f, by simp at hf; omega, ?_⟩
    have hl : loop num (f + 1) p (58 :: r) { toks := T ++ [k], super := sup } =
      loop num f (p + 1) r (colon { toks := T ++ [k], super := sup }) := rfl
    rw [hl]
    simp [colon]

theorem reach_comma (num p : Nat) (r : List Nat) (T : List Tok) (sup : Option Nat) (c : Nat)
    (hs : sup = some c ∨ ∃ i t, sup = some i ∧ T[i]? = some t ∧ isContainer t = false)
    (hc : ∃ t, T[c]? = some t ∧ isContainer t = true)
    (hf : findDown (fun u => isContainer u && isOpen u) T T.length = some c) :
    Reach num p (44 :: r) { toks := T, super := sup } (p + 1) r { toks := T, super := some c } := by
  intro f hf'
  cases f with
  | zero => omega
  | succ f =>
    refine ⟨f, by simp at hf'; omega, ?_⟩
    have hl : loop num (f + 1) p (44 :: r) { toks := T, super := sup } =
        (match comma { toks := T, super := sup } with
        | .error e => .error e
        | .ok st => loop num f (p + 1) r st) := rfl
    have hk : comma { toks := T, super := sup } = .ok { toks := T, super := some c } := by
      unfold comma
      rcases hs with rfl | ⟨i, t, rfl, h1, h2⟩
      · obtain ⟨t, h1, h2⟩ := hc
        simp only [h1, h2, if_true]
      · simp only [h1, h2, hf]
        rfl
    rw [hl, hk]

/-! ### The induction over the grammar -/

/-- A value is read: its tokens are added, the counter of the parent grows by one. -/
def ValRun (p : Nat) (t : List Nat) (ts : List Tok) : Prop :=
  (∀ u ∈ ts, isOpen u = false) ∧
  ∀ (num : Nat) (r : List Nat) (T : List Tok) (sup : Option Nat), Follow r →
    T.length + ts.length ≤ num → (∀ i, sup = some i → i < T.length) →
    ∃ sup', (sup' = sup ∨ sup' = lastOpen T) ∧
      Reach num p (t ++ r) { toks := T, super := sup } (p + t.length) r
        { toks := bumpL sup T ++ ts, super := sup' }

/-- An element or member of the innermost open array or object `c` is read. -/
def ItemRun (p : Nat) (t : List Nat) (ts : List Tok) : Prop :=
  (∀ u ∈ ts, isOpen u = false) ∧
  ∀ (num : Nat) (r : List Nat) (T : List Tok) (c : Nat) (tc : Tok), Follow r →
    T.length + ts.length ≤ num → lastOpen T = some c → T[c]? = some tc → isContainer tc = true →
    ∃ sup', (sup' = some c ∨ ∃ i u, sup' = some (T.length + i) ∧ ts[i]? = some u ∧
        isContainer u = false) ∧
      Reach num p (t ++ r) { toks := T, super := some c } (p + t.length) r
        { toks := T.modify c (inc 1) ++ ts, super := sup' }

def ItemsRun (p : Nat) (t : List Nat) (n : Nat) (ts : List Tok) : Prop :=
  (∀ u ∈ ts, isOpen u = false) ∧
  ∀ (num : Nat) (r : List Nat) (T : List Tok) (c : Nat) (tc : Tok), Follow r →
    T.length + ts.length ≤ num → lastOpen T = some c → T[c]? = some tc → isContainer tc = true →
    ∃ sup', Reach num p (t ++ r) { toks := T, super := some c } (p + t.length) r
        { toks := T.modify c (inc n) ++ ts, super := sup' }

theorem lastOpen_lt {T : List Tok} {c : Nat} (h : lastOpen T = some c) : c < T.length :=
  (findDown_some _ _ _ _ h).1

theorem follow_ws (w r : List Nat) (hw : Ws w) (hr : Follow r) : Follow (w ++ r) := by
  cases w with
  | nil => exact hr
  | cons c w =>
    right
    refine ⟨c, w ++ r, rfl, ?_⟩
    rcases hw c (by simp) with rfl | rfl | rfl | rfl <;> rfl

theorem follow_rb (o : Bool) (r : List Nat) : Follow (rb o :: r) :=
  Or.inr ⟨rb o, r, rfl, by cases o <;> rfl⟩

theorem cty_container (o : Bool) (q : Nat) (e : Option Nat) (n : Nat) :
    isContainer ⟨cty o, q, e, n⟩ = true := by cases o <;> rfl

theorem inc_inc (a b : Nat) (t : Tok) : inc a (inc b t) = inc (b + a) t := by
  simp [inc, Nat.add_assoc]

theorem modify_modify (T : List Tok) (c a b : Nat) :
    (T.modify c (inc a)).modify c (inc b) = T.modify c (inc (a + b)) := by
  induction T generalizing c with
  | nil => simp
  | cons t T ih =>
    cases c with
    | zero => simp [inc_inc]
    | succ c => simp [ih c]

theorem val_run {p : Nat} {t : List Nat} {ts : List Tok} (h : Val p t ts) : ValRun p t ts := by
  refine Val.rec (motive_1 := fun p t ts _ => ValRun p t ts)
    (motive_2 := fun _ p t ts _ => ItemRun p t ts)
    (motive_3 := fun _ p t n ts _ => ItemsRun p t n ts)
    ?_ ?_ ?_ ?_ ?_ ?_ ?_ ?_ h
  · -- string
    intro p s hs
    refine ⟨by simp [isOpen], ?_⟩
    intro num r T sup _ hn hsup
    refine ⟨sup, Or.inl rfl, ?_⟩
    have := reach_str num p s r T sup hs (by simp at hn; omega) hsup
    have e : 34 :: (s ++ [34]) ++ r = 34 :: (s ++ 34 :: r) := by simp
    rw [e]
    exact this.cast (by simp; omega)
  · -- primitive
    intro p s hs
    refine ⟨by simp [isOpen], ?_⟩
    intro num r T sup hr hn hsup
    exact ⟨sup, Or.inl rfl, reach_prim num p s r T sup hs hr (by simp at hn; omega) hsup⟩
  · -- empty array or object
    intro o p w hw
    refine ⟨by simp [isOpen], ?_⟩
    intro num r T sup _ hn hsup
    refine ⟨lastOpen T, Or.inr rfl, ?_⟩
    have e : lb o :: (w ++ [rb o]) ++ r = lb o :: (w ++ rb o :: r) := by simp
    rw [e]
    have h1 := reach_open num p o (w ++ rb o :: r) T sup (by simp at hn; omega) hsup
    have h2 := reach_ws num w (p + 1) (rb o :: r)
      { toks := bumpL sup T ++ [⟨cty o, p, none, 0⟩], super := some T.length } hw
    have h3 := reach_close num (p + 1 + w.length) p o r (bumpL sup T) [] 0 (some T.length) (by simp)
    rw [lastOpen_bumpL] at h3
    have e2 : p + 1 + w.length + 1 = p + w.length + 2 := by omega
    rw [e2] at h3
    exact ((h1.trans h2).trans h3).cast (by simp; omega)
  · -- array or object
    intro o p t n ts _ ih
    obtain ⟨ih1, ih2⟩ := ih
    refine ⟨?_, ?_⟩
    · intro u hu
      simp at hu
      rcases hu with rfl | hu
      · rfl
      · exact ih1 u hu
    intro num r T sup hr hn hsup
    refine ⟨lastOpen T, Or.inr rfl, ?_⟩
    simp at hn
    have e : lb o :: (t ++ [rb o]) ++ r = lb o :: (t ++ rb o :: r) := by simp
    rw [e]
    have h1 := reach_open num p o (t ++ rb o :: r) T sup (by omega) hsup
    have hlo : lastOpen (bumpL sup T ++ [⟨cty o, p, none, 0⟩]) = some T.length := by
      have := findDown_last isOpen (bumpL sup T) [] ⟨cty o, p, none, 0⟩ rfl (by simp)
      rw [bumpL_length] at this
      exact this
    have hg : (bumpL sup T ++ [(⟨cty o, p, none, 0⟩ : Tok)])[T.length]? = some ⟨cty o, p, none, 0⟩ := by
      rw [← bumpL_length sup T]; simp
    obtain ⟨sup', h2⟩ := ih2 num (rb o :: r) (bumpL sup T ++ [⟨cty o, p, none, 0⟩]) T.length
      ⟨cty o, p, none, 0⟩ (follow_rb o r) (by simp [bumpL_length]; omega) hlo hg
      (cty_container o p none 0)
    have em : (bumpL sup T ++ [(⟨cty o, p, none, 0⟩ : Tok)]).modify T.length (inc n) ++ ts
        = bumpL sup T ++ ⟨cty o, p, none, n⟩ :: ts := by
      rw [← bumpL_length sup T, modify_last]
      simp [inc]
    rw [em] at h2
    have h3 := reach_close num (p + 1 + t.length) p o r (bumpL sup T) ts n sup' ih1
    rw [lastOpen_bumpL] at h3
    have e2 : p + 1 + t.length + 1 = p + t.length + 2 := by omega
    rw [e2] at h3
    exact ((h1.trans h2).trans h3).cast (by simp; omega)
  · -- element
    intro p t ts _ ih
    obtain ⟨ih1, ih2⟩ := ih
    refine ⟨ih1, ?_⟩
    intro num r T c tc hr hn hlo hg hc
    obtain ⟨sup', hs, hR⟩ := ih2 num r T (some c) hr hn
      (fun i hi => by simp at hi; rw [← hi]; exact lastOpen_lt hlo)
    refine ⟨sup', Or.inl ?_, hR⟩
    rcases hs with h | h
    · exact h
    · rw [h]; exact hlo
  · -- member
    intro p s w1 w2 t ts hs hw1 hw2 _ ih
    obtain ⟨ih1, ih2⟩ := ih
    refine ⟨?_, ?_⟩
    · intro u hu
      simp at hu
      rcases hu with rfl | hu
      · rfl
      · exact ih1 u hu
    intro num r T c tc hr hn hlo hg hc
    simp at hn
    have hlt := lastOpen_lt hlo
    have e : 34 :: (s ++ 34 :: (w1 ++ 58 :: (w2 ++ t))) ++ r
        = 34 :: (s ++ 34 :: (w1 ++ 58 :: (w2 ++ (t ++ r)))) := by simp
    rw [e]
    have h1 := reach_str num p s (w1 ++ 58 :: (w2 ++ (t ++ r))) T (some c) hs (by omega)
      (fun i hi => by simp at hi; omega)
    have h2 := reach_ws num w1 (p + 1 + s.length + 1) (58 :: (w2 ++ (t ++ r)))
      { toks := bumpL (some c) T ++ [⟨.string, p + 1, some (p + 1 + s.length), 0⟩]
        super := some c } hw1
    have h3 := reach_colon num (p + 1 + s.length + 1 + w1.length) (w2 ++ (t ++ r))
      (bumpL (some c) T) ⟨.string, p + 1, some (p + 1 + s.length), 0⟩ (some c)
    have h4 := reach_ws num w2 (p + 1 + s.length + 1 + w1.length + 1) (t ++ r)
      { toks := bumpL (some c) T ++ [⟨.string, p + 1, some (p + 1 + s.length), 0⟩]
        super := some (bumpL (some c) T).length } hw2
    obtain ⟨sup', hsu, h5⟩ := ih2 num r
      (bumpL (some c) T ++ [⟨.string, p + 1, some (p + 1 + s.length), 0⟩])
      (some (bumpL (some c) T).length) hr (by simp [bumpL_length]; omega)
      (fun i hi => by simp at hi; simp; omega)
    refine ⟨sup', ?_, ?_⟩
    · rcases hsu with q | q
      · right
        refine ⟨0, ⟨.string, p + 1, some (p + 1 + s.length), 1⟩, ?_, rfl, rfl⟩
        rw [q, bumpL_length]; rfl
      · left
        rw [q, lastOpen_skip _ _ (by simp [isOpen]), lastOpen_bumpL, hlo]
    · have em : bumpL (some (bumpL (some c) T).length)
          (bumpL (some c) T ++ [⟨.string, p + 1, some (p + 1 + s.length), 0⟩]) ++ ts
          = T.modify c (inc 1) ++ ⟨.string, p + 1, some (p + 1 + s.length), 1⟩ :: ts := by
        have := modify_last (bumpL (some c) T) [] ⟨.string, p + 1, some (p + 1 + s.length), 0⟩ (inc 1)
        simp only [bumpL] at this ⊢
        rw [this]
        simp [inc]
      rw [em] at h5
      exact ((((h1.trans h2).trans h3).trans h4).trans h5).cast (by simp; omega)
  · -- last element or member
    intro o p w1 t w2 ts hw1 hw2 _ ih
    obtain ⟨ih1, ih2⟩ := ih
    refine ⟨ih1, ?_⟩
    intro num r T c tc hr hn hlo hg hc
    obtain ⟨sup', _, h2⟩ := ih2 num (w2 ++ r) T c tc (follow_ws w2 r hw2 hr) hn hlo hg hc
    refine ⟨sup', ?_⟩
    have e : w1 ++ (t ++ w2) ++ r = w1 ++ (t ++ (w2 ++ r)) := by simp
    rw [e]
    have h1 := reach_ws num w1 p (t ++ (w2 ++ r)) { toks := T, super := some c } hw1
    have h3 := reach_ws num w2 (p + w1.length + t.length) r
      { toks := T.modify c (inc 1) ++ ts, super := sup' } hw2
    exact ((h1.trans h2).trans h3).cast (by simp; omega)
  · -- element or member, comma, more
    intro o p w1 t w2 r' n ts rs hw1 hw2 _ _ ih ihs
    obtain ⟨ih1, ih2⟩ := ih
    obtain ⟨is1, is2⟩ := ihs
    refine ⟨?_, ?_⟩
    · intro u hu
      rw [List.mem_append] at hu
      rcases hu with hu | hu
      · exact ih1 u hu
      · exact is1 u hu
    intro num r T c tc hr hn hlo hg hc
    simp at hn
    have hlt := lastOpen_lt hlo
    have hF : Follow (w2 ++ 44 :: (r' ++ r)) := follow_ws w2 _ hw2 (Or.inr ⟨44, _, rfl, rfl⟩)
    obtain ⟨sup', hsu, h2⟩ := ih2 num (w2 ++ 44 :: (r' ++ r)) T c tc hF (by omega) hlo hg hc
    have e : w1 ++ (t ++ (w2 ++ 44 :: r')) ++ r = w1 ++ (t ++ (w2 ++ 44 :: (r' ++ r))) := by simp
    rw [e]
    have h1 := reach_ws num w1 p (t ++ (w2 ++ 44 :: (r' ++ r))) { toks := T, super := some c } hw1
    have h3 := reach_ws num w2 (p + w1.length + t.length) (44 :: (r' ++ r))
      { toks := T.modify c (inc 1) ++ ts, super := sup' } hw2
    have hlm : (T.modify c (inc 1)).length = T.length := by simp
    have hgc : (T.modify c (inc 1) ++ ts)[c]? = some (inc 1 tc) := by
      rw [List.getElem?_append_left (by omega), List.getElem?_modify, hg]
      simp
    have hlo' : lastOpen (T.modify c (inc 1) ++ ts) = some c := by
      rw [lastOpen_skip _ _ ih1]
      have := lastOpen_bumpL (some c) T
      simp only [bumpL] at this
      rw [this, hlo]
    have hfd : findDown (fun u => isContainer u && isOpen u) (T.modify c (inc 1) ++ ts)
        (T.modify c (inc 1) ++ ts).length = some c := by
      obtain ⟨f1, ⟨t0, f2, f3⟩, f4⟩ := findDown_some _ _ _ _ hlo'
      have ht0 : t0 = inc 1 tc := by rw [hgc] at f2; simp at f2; exact f2.symm
      have hdec : T.modify c (inc 1) ++ ts
          = (T.modify c (inc 1) ++ ts).take c ++ t0 :: (T.modify c (inc 1) ++ ts).drop (c + 1) := by
        have hget : (T.modify c (inc 1) ++ ts)[c] = t0 := by
          rw [List.getElem?_eq_getElem f1] at f2
          simpa using f2
        rw [← hget, ← List.drop_eq_getElem_cons f1, List.take_append_drop]
      have hlen : ((T.modify c (inc 1) ++ ts).take c).length = c := by
        rw [List.length_take]; omega
      have key := findDown_last (fun u => isContainer u && isOpen u)
        ((T.modify c (inc 1) ++ ts).take c) ((T.modify c (inc 1) ++ ts).drop (c + 1)) t0
        (by rw [ht0] at f3 ⊢; simp [f3]; exact hc)
        (by
          intro u hu
          obtain ⟨j, hj⟩ := List.getElem?_of_mem hu
          rw [List.getElem?_drop] at hj
          have hjl : c + 1 + j < (T.modify c (inc 1) ++ ts).length := by
            rcases Nat.lt_or_ge (c + 1 + j) (T.modify c (inc 1) ++ ts).length with q | q
            · exact q
            · rw [List.getElem?_eq_none q] at hj; cases hj
          have := f4 (c + 1 + j) u (by omega) hjl hj
          simp [this])
      rw [← hdec, hlen] at key
      exact key
    have h4 := reach_comma num (p + w1.length + t.length + w2.length) (r' ++ r)
      (T.modify c (inc 1) ++ ts) sup' c
      (by
        rcases hsu with q | ⟨i, u, q1, q2, q3⟩
        · exact Or.inl q
        · refine Or.inr ⟨T.length + i, u, q1, ?_, q3⟩
          rw [List.getElem?_append_right (by omega), hlm, Nat.add_sub_cancel_left]
          exact q2)
      ⟨inc 1 tc, hgc, hc⟩ hfd
    obtain ⟨sup'', h5⟩ := is2 num r (T.modify c (inc 1) ++ ts) c (inc 1 tc) hr
      (by simp; omega) hlo' hgc hc
    refine ⟨sup'', ?_⟩
    have em : (T.modify c (inc 1) ++ ts).modify c (inc n) ++ rs
        = T.modify c (inc (n + 1)) ++ (ts ++ rs) := by
      rw [modify_append _ _ _ (by omega), modify_modify, Nat.add_comm 1 n, List.append_assoc]
    rw [em] at h5
    exact ((((h1.trans h2).trans h3).trans h4).trans h5).cast (by simp; omega)

/-- C72: every JSON text with at most as many values and keys as there are tokens is read
completely, and the tokens are exactly its values and keys in the order of the text, with their
places and counts. -/
theorem C72_json_text (num : Nat) (w1 t w2 : List Nat) (ts : List Tok) (hw1 : Ws w1) (hw2 : Ws w2)
    (h : Val w1.length t ts) (hn : ts.length ≤ num) :
    parse num (w1 ++ (t ++ w2)) = .ok ts.length ts := by
  obtain ⟨hc, hrun⟩ := val_run h
  have h1 := reach_ws num w1 0 (t ++ w2) { toks := [], super := none } hw1
  rw [Nat.zero_add] at h1
  have hF : Follow w2 := by
    have := follow_ws w2 [] hw2 (Or.inl rfl)
    rwa [List.append_nil] at this
  obtain ⟨sup', _, h2⟩ := hrun num w2 [] none hF (by simpa using hn) (by simp)
  have h3 := reach_ws num w2 (w1.length + t.length) [] { toks := bumpL none [] ++ ts, super := sup' } hw2
  rw [List.append_nil] at h3
  obtain ⟨f', hf', e⟩ := ((h1.trans h2).trans h3) ((w1 ++ (t ++ w2)).length + 1) (by omega)
  unfold parse
  rw [e]
  cases f' with
  | zero => simp at hf'
  | succ f' =>
    have el : ∀ st, loop num (f' + 1) (w1.length + t.length + w2.length) [] st = .ok st := fun _ => rfl
    rw [el]
    have efd := findDown_skip isOpen [] ts hc
    simp only [bumpL, List.nil_append] at efd ⊢
    rw [efd]
    rfl

/-- A voucher-like text for the theorem: `{"a" : [1,"b"], "c":{}}`. -/
example : Val 0 [123, 34, 97, 34, 32, 58, 32, 91, 49, 44, 34, 98, 34, 93, 44, 32, 34, 99, 34, 58, 123, 125, 125]
    [⟨.object, 0, some 23, 2⟩, ⟨.string, 2, some 3, 1⟩, ⟨.array, 7, some 14, 2⟩,
     ⟨.primitive, 8, some 9, 0⟩, ⟨.string, 11, some 12, 0⟩, ⟨.string, 17, some 18, 1⟩,
     ⟨.object, 20, some 22, 0⟩] := by
  have a : ∀ c, c ≠ 0 → c ≠ 34 → c ≠ 92 → StrBody [c] := fun c x y z => .char c [] x y z .nil
  have n0 : Ws [] := by intro c hc; simp at hc
  have n1 : Ws [32] := by intro c hc; simp at hc; simp [hc]
  have v1 : Val 8 [49] [⟨.primitive, 8, some 9, 0⟩] := .prim 8 [49] (by unfold PrimText; decide)
  have vb : Val 10 [34, 98, 34] [⟨.string, 11, some 12, 0⟩] := .str 10 [98] (a 98 (by decide) (by decide) (by decide))
  have arr : Val 7 [91, 49, 44, 34, 98, 34, 93] [⟨.array, 7, some 14, 2⟩, ⟨.primitive, 8, some 9, 0⟩,
      ⟨.string, 11, some 12, 0⟩] :=
    .cont false 7 [49, 44, 34, 98, 34] 2 _ (.more false 8 [] [49] [] [34, 98, 34] 1 _ _ n0 n0 (.val _ _ _ v1)
      (.one false 10 [] [34, 98, 34] [] _ n0 n0 (.val _ _ _ vb)))
  have m1 : Item true 1 [34, 97, 34, 32, 58, 32, 91, 49, 44, 34, 98, 34, 93] _ :=
    .member 1 [97] [32] [32] _ _ (a 97 (by decide) (by decide) (by decide)) n1 n1 arr
  have m2 : Item true 16 [34, 99, 34, 58, 123, 125] _ :=
    .member 16 [99] [] [] _ _ (a 99 (by decide) (by decide) (by decide)) n0 n0 (.empty true 20 [] n0)
  exact .cont true 0 _ 2 _ (.more true 1 [] _ [] _ 1 _ _ n0 n0 m1 (.one true 15 [32] _ [] _ n1 n0 m2))

end Verif.Jsmn
