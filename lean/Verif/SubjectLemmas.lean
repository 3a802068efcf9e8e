import Verif.SubjectSpec

/-!
# C132: the loops of `parse_name`
-/
namespace Verif.Subject

/-! ## The two inner loops -/

theorem put_ok {cap : Nat} {buf b : List Nat} {c : Nat} (h : put cap buf c = .ok b) : b = buf ++ [c] ∧ buf.length < cap := by
  unfold put at h
  split at h
  · rename_i hc; cases h; exact ⟨rfl, hc⟩
  · cases h

theorem put_cases (cap : Nat) (buf : List Nat) (c : Nat) :
    (put cap buf c = .ok (buf ++ [c]) ∧ buf.length < cap) ∨ (put cap buf c = .ub ∧ cap ≤ buf.length) := by
  unfold put
  split
  · rename_i h; exact .inl ⟨rfl, h⟩
  · rename_i h; exact .inr ⟨rfl, by omega⟩

theorem flag_cases (max : Nat) (mval : List Bool) (b : Bool) :
    (flag max mval b = .ok (mval ++ [b]) ∧ mval.length < max) ∨ (flag max mval b = .ub ∧ max ≤ mval.length) := by
  unfold flag
  split
  · rename_i h; exact .inl ⟨rfl, h⟩
  · rename_i h; exact .inr ⟨rfl, by omega⟩

/-- Two elements of the list at a time. -/
theorem two_step {α : Type} {P : List α → Prop} (h0 : P []) (h1 : ∀ a, P [a]) (h2 : ∀ a b l, P l → P (b :: l) → P (a :: b :: l)) :
    ∀ l, P l := by
  intro l
  have : P l ∧ ∀ a, P (a :: l) := by
    induction l with
    | nil => exact ⟨h0, h1⟩
    | cons b l ih => exact ⟨ih.2 b, fun a => h2 a b l ih.1 (ih.2 b)⟩
  exact this.1

theorem typeLoop_total (cap : Nat) : ∀ sp buf, buf.length + sp.length ≤ cap →
    (∃ sp' buf', typeLoop cap sp buf = .ok (sp', buf') ∧ buf'.length + sp'.length ≤ buf.length + sp.length ∧
      (sp' = [] ∨ sp'.length + 1 ≤ sp.length)) ∨ typeLoop cap sp buf = .fail := by
  intro sp
  induction sp using two_step with
  | h0 => intro buf _; exact .inl ⟨[], buf, rfl, by simp, .inl rfl⟩
  | h1 c =>
    intro buf hb
    have hb' : buf.length < cap := by simp only [List.length_cons, List.length_nil] at hb; omega
    unfold typeLoop
    split
    · exact .inr rfl
    · split
      · rw [put, if_pos hb']
        exact .inl ⟨_, _, rfl, by simp, .inl rfl⟩
      · rw [put, if_pos hb']
        exact .inl ⟨_, _, rfl, by simp, .inl rfl⟩
  | h2 c d sp ih1 ih2 =>
    intro buf hb
    simp only [List.length_cons] at hb
    have hb' : buf.length < cap := by omega
    unfold typeLoop
    split
    · dsimp only
      rw [put, if_pos hb']
      dsimp only
      rcases ih1 (buf ++ [d]) (by simp; omega) with ⟨sp', buf', h1, h2, h3⟩ | h
      · refine .inl ⟨sp', buf', h1, ?_, ?_⟩
        · simp only [List.length_append, List.length_cons, List.length_nil] at h2 ⊢; omega
        · rcases h3 with h3 | h3
          · exact .inl h3
          · right; simp only [List.length_cons]; omega
      · exact .inr h
    · split
      · rw [put, if_pos hb']
        refine .inl ⟨_, _, rfl, ?_, ?_⟩
        · simp only [List.length_append, List.length_cons, List.length_nil]; omega
        · right; simp
      · rw [put, if_pos hb']
        dsimp only
        rcases ih2 (buf ++ [c]) (by simp; omega) with ⟨sp', buf', h1, h2, h3⟩ | h
        · refine .inl ⟨sp', buf', h1, ?_, ?_⟩
          · simp only [List.length_append, List.length_cons, List.length_nil] at h2 ⊢; omega
          · rcases h3 with h3 | h3
            · exact .inl h3
            · right; simp only [List.length_cons] at h3 ⊢; omega
        · exact .inr h

theorem typeLoop_sound (cap : Nat) : ∀ sp buf sp' buf', typeLoop cap sp buf = .ok (sp', buf') → sp' ≠ [] →
    ∃ t ty, sp = t ++ 61 :: sp' ∧ Esc endType t ty ∧ buf' = buf ++ ty ++ [0] := by
  intro sp
  induction sp using two_step with
  | h0 => intro buf sp' buf' h hn; unfold typeLoop at h; cases h; exact absurd rfl hn
  | h1 c =>
    intro buf sp' buf' h hn
    unfold typeLoop at h
    split at h
    · cases h
    · split at h
      · rcases put_cases cap buf 0 with ⟨e, _⟩ | ⟨e, _⟩ <;> rw [e] at h <;> cases h
        exact absurd rfl hn
      · rcases put_cases cap buf c with ⟨e, _⟩ | ⟨e, _⟩ <;> rw [e] at h <;> cases h
        exact absurd rfl hn
  | h2 c d sp ih1 ih2 =>
    intro buf sp' buf' h hn
    unfold typeLoop at h
    split at h
    · rename_i hc
      subst hc
      dsimp only at h
      rcases put_cases cap buf d with ⟨e, _⟩ | ⟨e, _⟩ <;> rw [e] at h <;> dsimp only at h
      · obtain ⟨t, ty, h1, h2, h3⟩ := ih1 _ _ _ h hn
        exact ⟨92 :: d :: t, d :: ty, by simp [h1], .esc d t ty h2, by simp [h3]⟩
      · cases h
    · split at h
      · rename_i hc
        subst hc
        rcases put_cases cap buf 0 with ⟨e, _⟩ | ⟨e, _⟩ <;> rw [e] at h <;> cases h
        exact ⟨[], [], rfl, .nil, by simp⟩
      · rename_i hc1 hc2
        rcases put_cases cap buf c with ⟨e, _⟩ | ⟨e, _⟩ <;> rw [e] at h <;> dsimp only at h
        · obtain ⟨t, ty, h1, h2, h3⟩ := ih2 _ _ _ h hn
          exact ⟨c :: t, c :: ty, by simp [h1], .plain c t ty hc1 (by simp [endType, hc2]) h2, by simp [h3]⟩
        · cases h

theorem typeLoop_complete (cap : Nat) {t ty : List Nat} (he : Esc endType t ty) : ∀ r buf,
    typeLoop cap (t ++ 61 :: r) buf = .ub ∨ typeLoop cap (t ++ 61 :: r) buf = .ok (r, buf ++ ty ++ [0]) := by
  induction he with
  | nil =>
    intro r buf
    rw [List.nil_append]
    unfold typeLoop
    rw [if_neg (by decide), if_pos rfl]
    rcases put_cases cap buf 0 with ⟨e, _⟩ | ⟨e, _⟩ <;> rw [e]
    · right; simp
    · left; rfl
  | plain c t s hc hs _ ih =>
    intro r buf
    rw [List.cons_append]
    unfold typeLoop
    rw [if_neg hc, if_neg (by simpa [endType] using hs)]
    rcases put_cases cap buf c with ⟨e, _⟩ | ⟨e, _⟩ <;> rw [e] <;> dsimp only
    · rcases ih r (buf ++ [c]) with h | h
      · exact .inl h
      · right; rw [h]; simp
    · left; rfl
  | esc c t s _ ih =>
    intro r buf
    rw [List.cons_append, List.cons_append]
    unfold typeLoop
    rw [if_pos rfl]
    dsimp only
    rcases put_cases cap buf c with ⟨e, _⟩ | ⟨e, _⟩ <;> rw [e] <;> dsimp only
    · rcases ih r (buf ++ [c]) with h | h
      · exact .inl h
      · right; rw [h]; simp
    · left; rfl

theorem valueLoop_total (multi : Bool) (cap max : Nat) : ∀ sp buf mval, buf.length + sp.length ≤ cap →
    2 ≤ sp.length + 1 → mval.length < max →
    (∃ sp' buf' mval', valueLoop multi cap max sp buf mval = .ok (sp', buf', mval') ∧
      ((sp' = [] ∧ buf'.length ≤ buf.length + sp.length ∧ mval' = mval) ∨
       (buf'.length + sp'.length + 1 ≤ buf.length + sp.length ∧ sp'.length + 1 ≤ sp.length ∧ mval'.length = mval.length + 1))) ∨
    valueLoop multi cap max sp buf mval = .fail := by
  have gen : ∀ sp buf mval, buf.length + sp.length ≤ cap → mval.length < max →
    (∃ sp' buf' mval', valueLoop multi cap max sp buf mval = .ok (sp', buf', mval') ∧
      ((sp' = [] ∧ buf'.length ≤ buf.length + sp.length ∧ mval' = mval) ∨
       (buf'.length + sp'.length + 1 ≤ buf.length + sp.length ∧ sp'.length + 1 ≤ sp.length ∧ mval'.length = mval.length + 1))) ∨
    valueLoop multi cap max sp buf mval = .fail := by
    intro sp
    induction sp using two_step with
    | h0 => intro buf mval _ _; exact .inl ⟨[], buf, mval, rfl, .inl ⟨rfl, by simp, rfl⟩⟩
    | h1 c =>
      intro buf mval hb hm
      have hb' : buf.length < cap := by simp only [List.length_cons, List.length_nil] at hb; omega
      unfold valueLoop
      split
      · exact .inr rfl
      · split
        · rw [flag, if_pos hm]
          exact .inl ⟨_, _, _, rfl, .inr ⟨by simp, by simp, by simp⟩⟩
        · split
          · rw [flag, if_pos hm]
            exact .inl ⟨_, _, _, rfl, .inr ⟨by simp, by simp, by simp⟩⟩
          · rw [put, if_pos hb']
            exact .inl ⟨_, _, _, rfl, .inl ⟨rfl, by simp, rfl⟩⟩
    | h2 c d sp ih1 ih2 =>
      intro buf mval hb hm
      simp only [List.length_cons] at hb
      have hb' : buf.length < cap := by omega
      unfold valueLoop
      split
      · dsimp only
        rw [put, if_pos hb']
        dsimp only
        rcases ih1 (buf ++ [d]) mval (by simp; omega) hm with ⟨sp', buf', mval', h1, h2⟩ | h
        · refine .inl ⟨sp', buf', mval', h1, ?_⟩
          simp only [List.length_append, List.length_cons, List.length_nil] at h2 ⊢
          rcases h2 with ⟨a, b, c⟩ | ⟨a, b, c⟩
          · exact .inl ⟨a, by omega, c⟩
          · exact .inr ⟨by omega, by omega, c⟩
        · exact .inr h
      · split
        · rw [flag, if_pos hm]
          exact .inl ⟨_, _, _, rfl, .inr ⟨by simp only [List.length_cons]; omega, by simp, by simp⟩⟩
        · split
          · rw [flag, if_pos hm]
            exact .inl ⟨_, _, _, rfl, .inr ⟨by simp only [List.length_cons]; omega, by simp, by simp⟩⟩
          · rw [put, if_pos hb']
            dsimp only
            rcases ih2 (buf ++ [c]) mval (by simp; omega) hm with ⟨sp', buf', mval', h1, h2⟩ | h
            · refine .inl ⟨sp', buf', mval', h1, ?_⟩
              simp only [List.length_append, List.length_cons, List.length_nil] at h2 ⊢
              rcases h2 with ⟨a, b, c⟩ | ⟨a, b, c⟩
              · exact .inl ⟨a, by omega, c⟩
              · exact .inr ⟨by omega, by omega, c⟩
            · exact .inr h
  intro sp buf mval h1 _ h3
  exact gen sp buf mval h1 h3

theorem valueLoop_sound (multi : Bool) (cap max : Nat) : ∀ sp buf mval sp' buf' mval',
    valueLoop multi cap max sp buf mval = .ok (sp', buf', mval') →
    ∃ v val, Esc (endValue multi) v val ∧
      ((sp = v ∧ sp' = []) ∨ sp = v ++ 47 :: sp' ∨ (multi = true ∧ sp = v ++ 43 :: sp')) := by
  intro sp
  induction sp using two_step with
  | h0 =>
    intro buf mval sp' buf' mval' h
    unfold valueLoop at h
    cases h
    exact ⟨[], [], .nil, .inl ⟨rfl, rfl⟩⟩
  | h1 c =>
    intro buf mval sp' buf' mval' h
    unfold valueLoop at h
    split at h
    · cases h
    · split at h
      · rename_i hc
        rcases flag_cases max mval false with ⟨e, _⟩ | ⟨e, _⟩ <;> rw [e] at h <;> cases h
        exact ⟨[], [], .nil, .inr (.inl (by rw [hc]; rfl))⟩
      · split at h
        · rename_i hc
          simp only [Bool.and_eq_true, decide_eq_true_eq] at hc
          rcases flag_cases max mval true with ⟨e, _⟩ | ⟨e, _⟩ <;> rw [e] at h <;> cases h
          exact ⟨[], [], .nil, .inr (.inr ⟨hc.2, by rw [hc.1]; rfl⟩)⟩
        · rename_i h1 h2 h3
          rcases put_cases cap buf c with ⟨e, _⟩ | ⟨e, _⟩ <;> rw [e] at h <;> cases h
          exact ⟨[c], [c], .plain c [] [] h1 (by simp [endValue, h2, h3]) .nil, .inl ⟨rfl, rfl⟩⟩
  | h2 c d sp ih1 ih2 =>
    intro buf mval sp' buf' mval' h
    unfold valueLoop at h
    split at h
    · rename_i hc
      subst hc
      dsimp only at h
      rcases put_cases cap buf d with ⟨e, _⟩ | ⟨e, _⟩ <;> rw [e] at h <;> dsimp only at h
      · obtain ⟨v, val, h1, h2⟩ := ih1 _ _ _ _ _ h
        refine ⟨92 :: d :: v, d :: val, .esc d v val h1, ?_⟩
        rcases h2 with ⟨a, b⟩ | a | ⟨a, b⟩
        · exact .inl ⟨by rw [a], b⟩
        · exact .inr (.inl (by rw [a]; rfl))
        · exact .inr (.inr ⟨a, by rw [b]; rfl⟩)
      · cases h
    · split at h
      · rename_i hc
        rcases flag_cases max mval false with ⟨e, _⟩ | ⟨e, _⟩ <;> rw [e] at h <;> cases h
        exact ⟨[], [], .nil, .inr (.inl (by rw [hc]; rfl))⟩
      · split at h
        · rename_i hc
          simp only [Bool.and_eq_true, decide_eq_true_eq] at hc
          rcases flag_cases max mval true with ⟨e, _⟩ | ⟨e, _⟩ <;> rw [e] at h <;> cases h
          exact ⟨[], [], .nil, .inr (.inr ⟨hc.2, by rw [hc.1]; rfl⟩)⟩
        · rename_i g1 g2 g3
          rcases put_cases cap buf c with ⟨e, _⟩ | ⟨e, _⟩ <;> rw [e] at h <;> dsimp only at h
          · obtain ⟨v, val, h1, h2⟩ := ih2 _ _ _ _ _ h
            refine ⟨c :: v, c :: val, .plain c v val g1 (by simpa [endValue, g2] using g3) h1, ?_⟩
            rcases h2 with ⟨a, b⟩ | a | ⟨a, b⟩
            · exact .inl ⟨by rw [a], b⟩
            · exact .inr (.inl (by rw [a]; rfl))
            · exact .inr (.inr ⟨a, by rw [b]; rfl⟩)
          · cases h

/-- What can come after a value, and the flag it sets. -/
inductive After (multi : Bool) : List Nat → List Nat → Option Bool → Prop
  | done : After multi [] [] none
  | slash (r : List Nat) : After multi (47 :: r) r (some false)
  | plus (r : List Nat) : multi = true → After multi (43 :: r) r (some true)

theorem valueLoop_complete (multi : Bool) (cap max : Nat) {v val : List Nat} (he : Esc (endValue multi) v val) :
    ∀ x r f buf mval, After multi x r f →
    valueLoop multi cap max (v ++ x) buf mval = .ub ∨
    valueLoop multi cap max (v ++ x) buf mval = .ok (r, buf ++ val, mval ++ f.toList) := by
  induction he with
  | nil =>
    intro x r f buf mval ha
    cases ha with
    | done => right; simp [valueLoop]
    | slash r =>
      rw [List.nil_append]
      unfold valueLoop
      rw [if_neg (by decide), if_pos rfl]
      rcases flag_cases max mval false with ⟨e, _⟩ | ⟨e, _⟩ <;> rw [e]
      · right; simp
      · left; rfl
    | plus r hm =>
      rw [List.nil_append]
      unfold valueLoop
      rw [if_neg (by decide), if_neg (by decide), if_pos (by simp [hm])]
      rcases flag_cases max mval true with ⟨e, _⟩ | ⟨e, _⟩ <;> rw [e]
      · right; simp
      · left; rfl
  | plain c t s hc hs _ ih =>
    intro x r f buf mval ha
    have hs' := hs
    simp only [endValue, Bool.or_eq_false_iff, decide_eq_false_iff_not] at hs'
    rw [List.cons_append]
    unfold valueLoop
    rw [if_neg hc, if_neg hs'.1, if_neg (by rw [hs'.2]; decide)]
    rcases put_cases cap buf c with ⟨e, _⟩ | ⟨e, _⟩ <;> rw [e] <;> dsimp only
    · rcases ih x r f (buf ++ [c]) mval ha with h | h
      · exact .inl h
      · right; rw [h]; simp
    · left; rfl
  | esc c t s _ ih =>
    intro x r f buf mval ha
    rw [List.cons_append, List.cons_append]
    unfold valueLoop
    rw [if_pos rfl]
    dsimp only
    rcases put_cases cap buf c with ⟨e, _⟩ | ⟨e, _⟩ <;> rw [e] <;> dsimp only
    · rcases ih x r f (buf ++ [c]) mval ha with h | h
      · exact .inl h
      · right; rw [h]; simp
    · left; rfl

/-! ## The loop over the elements -/

/-- Room for what is left of the text, of `n` bytes. -/
structure Room (n : Nat) (sp : List Nat) (s : St) : Prop where
  buf : s.buf.length + sp.length + 1 ≤ n ∨ (sp = [] ∧ s.buf.length ≤ n)
  types : 2 * s.types.length + sp.length + 1 ≤ n ∨ sp = []
  values : s.values.length = s.types.length
  mval : s.mval.length = s.types.length + 1 ∨ sp = []

theorem loop_total (multi : Bool) (n : Nat) : ∀ k sp s, sp.length < k → Room n sp s →
    (∃ s', loop multi (n + 1) ((n + 1) / 2 + 1) k sp s = .ok s') ∨ loop multi (n + 1) ((n + 1) / 2 + 1) k sp s = .fail := by
  intro k
  induction k with
  | zero => intro sp s h; omega
  | succ k ih =>
    intro sp s hk hr
    unfold loop
    split
    · exact .inl ⟨s, rfl⟩
    · rename_i hsp
      have r1 : s.buf.length + sp.length + 1 ≤ n := hr.buf.resolve_right (fun h => hsp h.1)
      have r2 : 2 * s.types.length + sp.length + 1 ≤ n := hr.types.resolve_right hsp
      have r3 : s.mval.length = s.types.length + 1 := hr.mval.resolve_right hsp
      have r4 := hr.values
      rw [if_pos (by omega)]
      rcases typeLoop_total (n + 1) sp s.buf (by omega) with ⟨sp1, buf1, h1, h2, h3⟩ | h
      · rw [h1]
        dsimp only
        split
        · exact .inr rfl
        · rename_i hsp1
          have h3' := h3.resolve_left hsp1
          rw [if_pos (by omega)]
          have hpos : 0 < sp1.length := List.length_pos_iff.2 hsp1
          rcases valueLoop_total multi (n + 1) ((n + 1) / 2 + 1) sp1 buf1 s.mval (by omega) (by omega) (by omega) with
            ⟨sp2, buf2, mval, g1, g2⟩ | g
          · rw [g1]
            dsimp only
            have hb2 : buf2.length < n + 1 := by
              rcases g2 with ⟨_, b, _⟩ | ⟨a, _, _⟩ <;> omega
            rw [put, if_pos hb2]
            dsimp only
            apply ih
            · rcases g2 with ⟨a, _, _⟩ | ⟨_, b, _⟩
              · rw [a]; simp only [List.length_nil]; omega
              · omega
            · rcases g2 with ⟨a, b, c⟩ | ⟨a, b, c⟩
              · exact ⟨.inr ⟨a, by simp only [List.length_append, List.length_cons, List.length_nil]; omega⟩, .inr a,
                  by simp [r4], .inr a⟩
              · exact ⟨.inl (by simp only [List.length_append, List.length_cons, List.length_nil]; omega),
                  .inl (by simp only [List.length_append, List.length_cons, List.length_nil]; omega), by simp [r4],
                  .inl (by simp only [List.length_append, List.length_cons, List.length_nil]; omega)⟩
          · rw [g]; exact .inr rfl
      · rw [h]; exact .inr rfl

theorem loop_sound (multi : Bool) (cap max : Nat) : ∀ k sp s s' j, loop multi cap max k sp s = .ok s' → ∃ l, Body multi j sp l := by
  intro k
  induction k with
  | zero => intro sp s s' j h; unfold loop at h; cases h
  | succ k ih =>
    intro sp s s' j h
    unfold loop at h
    split at h
    · rename_i hsp; subst hsp; exact ⟨[], .done j⟩
    · split at h
      · split at h
        · rename_i sp1 buf1 h1
          split at h
          · cases h
          · rename_i hsp1
            split at h
            · split at h
              · rename_i sp2 buf2 mval h2
                obtain ⟨t, ty, e1, e2, _⟩ := typeLoop_sound cap _ _ _ _ h1 hsp1
                obtain ⟨v, val, e3, e4⟩ := valueLoop_sound multi cap max _ _ _ _ _ _ h2
                split at h
                · rcases e4 with ⟨a, b⟩ | a | ⟨a, b⟩
                  · exact ⟨_, by rw [e1, a]; exact .last j t ty v val e2 e3 (by rw [← a]; exact hsp1)⟩
                  · obtain ⟨l, hl⟩ := ih _ _ _ false h
                    exact ⟨_, by rw [e1, a]; exact .slash j t ty v val sp2 l e2 e3 hl⟩
                  · obtain ⟨l, hl⟩ := ih _ _ _ true h
                    exact ⟨_, by rw [e1, b]; exact .plus j t ty v val sp2 l a e2 e3 hl⟩
                · cases h
                · cases h
                · cases h
              · cases h
              · cases h
              · cases h
            · cases h
        · cases h
        · cases h
        · cases h
      · cases h

/-- The arrays and the buffer hold these elements. -/
structure Holds (s : St) (l : List Elem) : Prop where
  types : s.types.map (strAt s.buf) = l.map fun e => some e.type
  values : s.values.map (strAt s.buf) = l.map fun e => some e.value
  mval : s.mval.take l.length = l.map Elem.join

theorem takeWhile_append_of_mem {a b : List Nat} (h : 0 ∈ a) : (a ++ b).takeWhile (· ≠ 0) = a.takeWhile (· ≠ 0) := by
  induction a with
  | nil => cases h
  | cons x a ih =>
    rw [List.cons_append, List.takeWhile_cons, List.takeWhile_cons]
    split
    · rename_i hx
      have : 0 ∈ a := by
        rcases List.mem_cons.1 h with h | h
        · rw [← h] at hx; simp at hx
        · exact h
      rw [ih this]
    · rfl

theorem strAt_append {buf x : List Nat} {off : Nat} {v : List Nat} (h : strAt buf off = some v) : strAt (buf ++ x) off = some v := by
  unfold strAt at h
  split at h
  · rename_i hm
    cases h
    have hle : off ≤ buf.length := by
      rcases Nat.lt_or_ge buf.length off with hl | hl
      · rw [List.drop_of_length_le (by omega)] at hm; cases hm
      · exact hl
    unfold strAt
    rw [List.drop_append_of_le_length hle, if_pos (List.mem_append_left _ hm), takeWhile_append_of_mem hm]
  · cases h

theorem strAt_here (buf v x : List Nat) (h : 0 ∉ v) : strAt (buf ++ v ++ [0] ++ x) buf.length = some v := by
  unfold strAt
  rw [List.append_assoc, List.append_assoc, List.drop_left]
  rw [if_pos (by simp)]
  congr 1
  induction v with
  | nil => rfl
  | cons c v ih =>
    have hc : c ≠ 0 := fun e => h (by simp [e])
    rw [List.cons_append, List.takeWhile_cons, if_pos (by simp [hc])]
    rw [ih (fun hm => h (by simp [hm]))]

theorem map_strAt_append {buf x : List Nat} : ∀ (ts : List Nat) (l : List (List Nat)),
    ts.map (strAt buf) = l.map some → ts.map (strAt (buf ++ x)) = l.map some
  | [], l, h => by cases l with
    | nil => rfl
    | cons _ _ => cases h
  | t :: ts, l, h => by
    cases l with
    | nil => cases h
    | cons a l =>
      simp only [List.map_cons, List.cons.injEq] at h ⊢
      exact ⟨strAt_append h.1, map_strAt_append ts l h.2⟩

theorem esc_zero {stop : Nat → Bool} {t s : List Nat} (h : Esc stop t s) (h0 : 0 ∉ t) : 0 ∉ s := by
  induction h with
  | nil => simp
  | plain c t s _ _ _ ih =>
    simp only [List.mem_cons, not_or] at h0 ⊢
    exact ⟨h0.1, ih h0.2⟩
  | esc c t s _ ih =>
    simp only [List.mem_cons, not_or] at h0 ⊢
    exact ⟨h0.2.1, ih h0.2.2⟩

/-- One more element. -/
theorem holds_step {s : St} {l : List Elem} {ty val : List Nat} {j : Bool} {f : List Bool} (hh : Holds s l) (hm : s.mval = l.map Elem.join ++ [j])
    (h1 : 0 ∉ ty) (h2 : 0 ∉ val) :
    Holds ⟨s.buf ++ ty ++ [0] ++ val ++ [0], s.types ++ [s.buf.length], s.values ++ [(s.buf ++ ty ++ [0]).length], s.mval ++ f⟩
      (l ++ [⟨j, ty, val⟩]) := by
  have e1 : s.buf ++ ty ++ [0] ++ val ++ [0] = s.buf ++ (ty ++ [0] ++ val ++ [0]) := by simp
  refine ⟨?_, ?_, ?_⟩
  · dsimp only
    rw [List.map_append, List.map_append]
    congr 1
    · rw [e1]
      have := map_strAt_append (x := ty ++ [0] ++ val ++ [0]) s.types (l.map Elem.type) (by rw [hh.types, List.map_map]; rfl)
      rw [this, List.map_map]; rfl
    · simp only [List.map_cons, List.map_nil]
      have := strAt_here s.buf ty (val ++ [0]) h1
      rw [← List.append_assoc] at this
      rw [this]
  · dsimp only
    rw [List.map_append, List.map_append]
    congr 1
    · rw [e1]
      have := map_strAt_append (x := ty ++ [0] ++ val ++ [0]) s.values (l.map Elem.value) (by rw [hh.values, List.map_map]; rfl)
      rw [this, List.map_map]; rfl
    · simp only [List.map_cons, List.map_nil]
      have := strAt_here (s.buf ++ ty ++ [0]) val [] h2
      rw [List.append_nil] at this
      rw [this]
  · dsimp only
    rw [hm, List.length_append, List.map_append, List.append_assoc]
    have : l.length + [(⟨j, ty, val⟩ : Elem)].length = (l.map Elem.join).length + 1 := by simp
    rw [this, List.take_length_add_append]
    rfl

theorem loop_complete (multi : Bool) (cap max : Nat) {j : Bool} {sp : List Nat} {l : List Elem} (hb : Body multi j sp l) :
    ∀ k s els, sp.length < k → 0 ∉ sp → Holds s els → (s.mval = els.map Elem.join ++ [j] ∨ sp = []) →
    loop multi cap max k sp s = .ub ∨ ∃ s', loop multi cap max k sp s = .ok s' ∧ Holds s' (els ++ l) := by
  induction hb with
  | done j =>
    intro k s els hk _ hh _
    cases k with
    | zero => simp at hk
    | succ k =>
      right
      refine ⟨s, ?_, by simpa using hh⟩
      unfold loop
      rw [if_pos rfl]
  | last j t ty v val ht hv hne =>
    intro k s els hk h0 hh hm
    have hm' := hm.resolve_right (by simp)
    simp only [List.mem_append, List.mem_cons, not_or] at h0
    cases k with
    | zero => simp at hk
    | succ k =>
      unfold loop
      rw [if_neg (by simp)]
      split
      · rcases typeLoop_complete cap ht v s.buf with e | e <;> rw [e] <;> dsimp only
        · exact .inl rfl
        · rw [if_neg hne]
          split
          · have ev := valueLoop_complete multi cap max hv [] [] none (s.buf ++ ty ++ [0]) s.mval .done
            rw [List.append_nil] at ev
            rcases ev with e | e <;> rw [e] <;> dsimp only
            · exact .inl rfl
            · rcases put_cases cap (s.buf ++ ty ++ [0] ++ val) 0 with ⟨e, _⟩ | ⟨e, _⟩ <;> rw [e] <;> dsimp only
              · cases k with
                | zero => simp only [List.length_append, List.length_cons] at hk; omega
                | succ k =>
                  right
                  refine ⟨_, ?_, holds_step (f := (none : Option Bool).toList) hh hm' (esc_zero ht h0.1) (esc_zero hv h0.2.2)⟩
                  unfold loop
                  rw [if_pos rfl]
              · exact .inl rfl
          · exact .inl rfl
      · exact .inl rfl
  | slash j t ty v val r l ht hv _ ih =>
    intro k s els hk h0 hh hm
    have hm' := hm.resolve_right (by simp)
    simp only [List.mem_append, List.mem_cons, not_or] at h0
    cases k with
    | zero => simp at hk
    | succ k =>
      unfold loop
      rw [if_neg (by simp)]
      split
      · rcases typeLoop_complete cap ht (v ++ 47 :: r) s.buf with e | e <;> rw [e] <;> dsimp only
        · exact .inl rfl
        · rw [if_neg (by simp)]
          split
          · rcases valueLoop_complete multi cap max hv (47 :: r) r (some false) (s.buf ++ ty ++ [0]) s.mval (.slash r) with e | e <;>
              rw [e] <;> dsimp only
            · exact .inl rfl
            · rcases put_cases cap (s.buf ++ ty ++ [0] ++ val) 0 with ⟨e, _⟩ | ⟨e, _⟩ <;> rw [e] <;> dsimp only
              · have hs := holds_step (f := [false]) hh hm' (esc_zero ht h0.1) (esc_zero hv h0.2.2.1)
                have := ih k _ _ (by simp only [List.length_append, List.length_cons] at hk; omega) h0.2.2.2.2 hs
                  (.inl (by rw [hm']; simp))
                simpa using this
              · exact .inl rfl
          · exact .inl rfl
      · exact .inl rfl
  | plus j t ty v val r l hmu ht hv _ ih =>
    intro k s els hk h0 hh hm
    have hm' := hm.resolve_right (by simp)
    simp only [List.mem_append, List.mem_cons, not_or] at h0
    cases k with
    | zero => simp at hk
    | succ k =>
      unfold loop
      rw [if_neg (by simp)]
      split
      · rcases typeLoop_complete cap ht (v ++ 43 :: r) s.buf with e | e <;> rw [e] <;> dsimp only
        · exact .inl rfl
        · rw [if_neg (by simp)]
          split
          · rcases valueLoop_complete multi cap max hv (43 :: r) r (some true) (s.buf ++ ty ++ [0]) s.mval (.plus r hmu) with e | e <;>
              rw [e] <;> dsimp only
            · exact .inl rfl
            · rcases put_cases cap (s.buf ++ ty ++ [0] ++ val) 0 with ⟨e, _⟩ | ⟨e, _⟩ <;> rw [e] <;> dsimp only
              · have hs := holds_step (f := [true]) hh hm' (esc_zero ht h0.1) (esc_zero hv h0.2.2.1)
                have := ih k _ _ (by simp only [List.length_append, List.length_cons] at hk; omega) h0.2.2.2.2 hs
                  (.inl (by rw [hm']; simp))
                simpa using this
              · exact .inl rfl
          · exact .inl rfl
      · exact .inl rfl

end Verif.Subject
