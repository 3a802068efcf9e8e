import Verif.HostModel

/-!
# Properties of the server name check (C10, C11)
-/
namespace Verif.Host

/-- C strings: no NUL inside. -/
def Str (s : List Nat) : Prop := ∀ c ∈ s, c ≠ 0

/-- Specification: small ASCII letters become capitals. -/
def capital (c : Nat) : Nat := if 97 ≤ c ∧ c ≤ 122 then c - 32 else c

/-- Equal but for the case of ASCII letters. -/
def EqCase (a b : List Nat) : Prop := a.map capital = b.map capital

theorem eqCase_iff (a b : List Nat) : EqCase a b ↔ a.map upper = b.map upper := Iff.rfl

/-! ## The comparison functions -/

theorem upper_zero {c : Nat} (h : upper c = 0) : c = 0 := by
  unfold upper at h; split at h <;> omega

theorem rawEqual_iff : ∀ (a b : List Nat), Str a → Str b → (rawEqual a b = true ↔ EqCase a b)
  | [], [], _, _ => by simp [rawEqual, sameHead, eqCase_iff]
  | [], b :: bs, _, hb => by
    have := hb b (List.mem_cons_self ..)
    have hu : upper b ≠ 0 := fun h => this (upper_zero h)
    have h0 : upper 0 = 0 := rfl
    simp [rawEqual, sameHead, eqCase_iff, h0]; omega
  | a :: as, [], ha, _ => by
    have := ha a (List.mem_cons_self ..)
    have hu : upper a ≠ 0 := fun h => this (upper_zero h)
    have h0 : upper 0 = 0 := rfl
    simp [rawEqual, sameHead, eqCase_iff, h0]; omega
  | a :: as, b :: bs, ha, hb => by
    have ih := rawEqual_iff as bs (fun c hc => ha c (List.mem_cons_of_mem _ hc))
      (fun c hc => hb c (List.mem_cons_of_mem _ hc))
    unfold rawEqual
    by_cases h : upper a = upper b
    · simp only [h, ne_eq, not_true_eq_false, if_false, ih, eqCase_iff, List.map_cons, List.cons.injEq,
        true_and]
    · simp [h, sameHead, eqCase_iff]

theorem rawNequal_iff : ∀ (k : Nat) (a b : List Nat), k ≤ a.length → k ≤ b.length →
    (rawNequal a b k = true ↔ EqCase (a.take k) (b.take k))
  | 0, _, _, _, _ => by simp [rawNequal, eqCase_iff]
  | k + 1, [], _, h, _ => by simp at h
  | k + 1, _ :: _, [], _, h => by simp at h
  | k + 1, a :: as, b :: bs, ha, hb => by
    have ih := rawNequal_iff k as bs (by simpa using ha) (by simpa using hb)
    unfold rawNequal
    by_cases h : upper a = upper b
    · simp only [h, ne_eq, not_true_eq_false, if_false, ih, eqCase_iff, List.take_succ_cons,
        List.map_cons, List.cons.injEq, true_and]
    · simp [h, sameHead, eqCase_iff]

/-- Does the pattern begin with `xn--` (any case)? -/
def Xn (s : List Nat) : Prop := EqCase (s.take 4) [120, 110, 45, 45]

theorem rawNequal_xn (s : List Nat) (hs : Str s) :
    rawNequal s [120, 110, 45, 45] 4 = true ↔ Xn s := by
  match s, hs with
  | [], _ => simp [rawNequal, sameHead, Xn, eqCase_iff, upper]
  | [a], hs =>
    have h1 := hs a (by simp)
    by_cases ha : upper a = upper 120
    · simp [rawNequal, sameHead, Xn, eqCase_iff, ha]; simp [upper]
    · simp [rawNequal, sameHead, Xn, eqCase_iff, ha]
  | [a, b], hs =>
    by_cases ha : upper a = upper 120
    · by_cases hb : upper b = upper 110
      · simp [rawNequal, sameHead, Xn, eqCase_iff, ha, hb]; simp [upper]
      · simp [rawNequal, sameHead, Xn, eqCase_iff, ha, hb]
    · simp [rawNequal, sameHead, Xn, eqCase_iff, ha]
  | [a, b, c], hs =>
    by_cases ha : upper a = upper 120
    · by_cases hb : upper b = upper 110
      · by_cases hc : upper c = upper 45
        · simp [rawNequal, sameHead, Xn, eqCase_iff, ha, hb, hc]; simp [upper]
        · simp [rawNequal, sameHead, Xn, eqCase_iff, ha, hb, hc]
      · simp [rawNequal, sameHead, Xn, eqCase_iff, ha, hb]
    · simp [rawNequal, sameHead, Xn, eqCase_iff, ha]
  | a :: b :: c :: d :: r, hs =>
    exact rawNequal_iff 4 _ [120, 110, 45, 45] (by simp) (by simp)

/-! ## Splitting at a character -/

theorem split_at (c : Nat) (s : List Nat) : before c s ++ chr c s = s :=
  List.takeWhile_append_dropWhile

theorem before_free (c : Nat) (s : List Nat) : c ∉ before c s := by
  intro h
  simpa using (List.all_takeWhile (l := s) (p := (· ≠ c)) |> List.all_eq_true.1) c h

theorem chr_head {c : Nat} {s : List Nat} (h : chr c s ≠ []) : ∃ r, chr c s = c :: r := by
  induction s with
  | nil => exact absurd rfl h
  | cons a s ih =>
    unfold chr at *
    by_cases ha : a = c
    · exact ⟨s, by simp [ha]⟩
    · rw [List.dropWhile_cons_of_pos (by simpa using ha)] at h ⊢
      exact ih h

theorem chr_nil_iff (c : Nat) (s : List Nat) : chr c s = [] ↔ c ∉ s := by
  induction s with
  | nil => simp [chr]
  | cons a s ih =>
    unfold chr at *
    by_cases ha : a = c
    · simp [ha]
    · rw [List.dropWhile_cons_of_pos (by simpa using ha), ih]
      have : ¬ c = a := fun h => ha h.symm
      simp [this]

theorem before_append {c : Nat} {p r : List Nat} (hp : c ∉ p) : before c (p ++ c :: r) = p := by
  induction p with
  | nil => simp [before]
  | cons a p ih =>
    have h1 : a ≠ c := fun h => hp (by simp [h])
    have h2 : c ∉ p := fun h => hp (List.mem_cons_of_mem _ h)
    have := ih h2
    unfold before at *
    rw [List.cons_append, List.takeWhile_cons_of_pos (by simpa using h1), this]

theorem chr_append {c : Nat} {p r : List Nat} (hp : c ∉ p) : chr c (p ++ c :: r) = c :: r := by
  have h := split_at c (p ++ c :: r)
  rw [before_append hp] at h
  exact List.append_cancel_left h

theorem upper_dot {c : Nat} : upper c = upper 46 ↔ c = 46 := by
  have : upper 46 = 46 := rfl
  rw [this]; unfold upper; split <;> omega

theorem EqCase.length {a b : List Nat} (h : EqCase a b) : a.length = b.length := by
  have := congrArg List.length h; simpa using this

theorem Str.append {a b : List Nat} (h : Str (a ++ b)) : Str a ∧ Str b :=
  ⟨fun c hc => h c (List.mem_append_left _ hc), fun c hc => h c (List.mem_append_right _ hc)⟩

/-! ## C10 -/

/-- The permitted wildcard matches: `pre * suf` is the first label of the pattern, `mid` is
what the star stands for, `tail` and `htail` are everything from the first dot on. -/
structure Wild (host pattern : List Nat) : Prop where
  parts : ∃ pre suf tail hpre mid hsuf htail,
    pattern = pre ++ 42 :: suf ++ 46 :: tail ∧ host = hpre ++ mid ++ hsuf ++ 46 :: htail ∧
    42 ∉ pre ∧ 46 ∉ pre ∧ 46 ∉ suf ∧ 46 ∈ tail ∧
    46 ∉ hpre ++ mid ++ hsuf ∧ mid ≠ [] ∧
    EqCase pre hpre ∧ EqCase suf hsuf ∧ EqCase tail htail
  notXn : ¬ Xn pattern

theorem wildcard_sound {host pattern : List Nat} (hh : Str host) (hp : Str pattern)
    (hstar : chr 42 pattern ≠ []) (he : wildcardEnabled pattern = true)
    (hm : wildcardMatch host pattern = true) : Wild host pattern := by
  simp only [wildcardEnabled, Bool.not_eq_true', Bool.or_eq_false_iff, decide_eq_false_iff_not] at he
  obtain ⟨⟨⟨e1, e2⟩, e3⟩, e4⟩ := he
  simp only [wildcardMatch] at hm
  split at hm
  · cases hm
  · rename_i hc
    simp only [Bool.or_eq_true, decide_eq_true_eq, Bool.not_eq_true', not_or,
      Bool.not_eq_false] at hc
    obtain ⟨c1, c2⟩ := hc
    split at hm
    · cases hm
    · rename_i hlen
      rw [Bool.and_eq_true] at hm
      obtain ⟨m1, m2⟩ := hm
      obtain ⟨tail, ht⟩ := chr_head e1
      obtain ⟨htail, hht⟩ := chr_head c1
      obtain ⟨r, hr⟩ := chr_head hstar
      rw [ht] at e2
      simp only [List.tail_cons] at e2
      have hpat := split_at 46 pattern
      have hhost := split_at 46 host
      have hpat2 := split_at 42 pattern
      rw [ht] at hpat
      rw [hht] at hhost
      rw [hr] at hpat2
      -- the star lies in the first label
      have hpre : ∃ suf, before 46 pattern = before 42 pattern ++ 42 :: suf ∧ r = suf ++ 46 :: tail := by
        have hx : before 42 pattern ++ 42 :: r = before 46 pattern ++ 46 :: tail := by
          rw [hpat2, hpat]
        rcases List.append_eq_append_iff.1 hx with ⟨a, h1, h2⟩ | ⟨a, h1, h2⟩
        · cases a with
          | nil => simp at h2
          | cons x a =>
            simp only [List.cons_append, List.cons.injEq] at h2
            exact ⟨a, by rw [h1, h2.1], h2.2⟩
        · have : a = [] := by
            have hl := congrArg List.length h1
            simp at hl
            have : a.length = 0 := by omega
            exact List.length_eq_zero_iff.1 this
          subst this
          simp at h2
      obtain ⟨suf, hb, hrs⟩ := hpre
      generalize hpre' : before 42 pattern = pre at *
      generalize hhl : before 46 host = hl at *
      have hbl : (before 46 pattern).length = pre.length + 1 + suf.length := by
        rw [hb]; simp; omega
      have hhlen : pre.length + 1 + suf.length ≤ hl.length := by omega
      have hsl : (before 46 pattern).length - (pre.length + 1) = suf.length := by omega
      rw [hsl, hr, List.tail_cons, hrs] at m2
      have hpatS : pattern = pre ++ 42 :: suf ++ 46 :: tail := by rw [← hpat, hb]
      rw [rawNequal_iff _ _ _ (by rw [hpatS]; simp) (by rw [← hhost]; simp; omega)] at m1
      rw [rawNequal_iff _ _ _ (by simp) (by rw [← hhost]; simp; omega)] at m2
      have t1 : pattern.take pre.length = pre := by rw [hpatS]; simp
      have t2 : host.take pre.length = hl.take pre.length := by
        rw [← hhost, List.take_append_of_le_length (by omega)]
      have t3 : (host.drop (hl.length - suf.length)).take suf.length = hl.drop (hl.length - suf.length) := by
        rw [← hhost, List.drop_append_of_le_length (by omega), List.take_append_of_le_length (by simp; omega)]
        apply List.take_of_length_le; simp; omega
      rw [t1, t2] at m1
      rw [t3] at m2
      simp only [List.take_left'] at m2
      refine ⟨⟨pre, suf, tail, hl.take pre.length,
        (hl.drop pre.length).take (hl.length - suf.length - pre.length),
        hl.drop (hl.length - suf.length), htail, hpatS, ?_, ?_, ?_, ?_, ?_, ?_, ?_, m1, m2, ?_⟩, ?_⟩
      · have : hl.take pre.length ++ (hl.drop pre.length).take (hl.length - suf.length - pre.length) ++
            hl.drop (hl.length - suf.length) = hl := by
          rw [← List.take_add, Nat.add_sub_cancel' (by omega), List.take_append_drop]
        rw [this, hhost]
      · rw [← hpre']; exact before_free 42 pattern
      · intro h
        have : (46 : Nat) ∈ before 46 pattern := by rw [hb]; exact List.mem_append_left _ h
        exact before_free 46 pattern this
      · intro h
        have : (46 : Nat) ∈ before 46 pattern := by
          rw [hb]; exact List.mem_append_right _ (List.mem_cons_of_mem _ h)
        exact before_free 46 pattern this
      · apply Decidable.byContradiction
        intro h
        have := (chr_nil_iff 46 tail).2 h
        simp [this] at e2
      · have : hl.take pre.length ++ (hl.drop pre.length).take (hl.length - suf.length - pre.length) ++
            hl.drop (hl.length - suf.length) = hl := by
          rw [← List.take_add, Nat.add_sub_cancel' (by omega), List.take_append_drop]
        rw [this, ← hhl]
        exact before_free 46 host
      · intro h
        have := congrArg List.length h
        simp at this
        omega
      · rw [ht, hht] at c2
        have hs1 : Str (46 :: tail) := by rw [hpatS] at hp; exact (Str.append hp).2
        have hs2 : Str (46 :: htail) := by rw [← hhost] at hh; exact (Str.append hh).2
        have := (rawEqual_iff _ _ hs1 hs2).1 c2
        simpa [eqCase_iff] using this
      · rw [← rawNequal_xn pattern hp]
        simp [e4]

theorem wildcard_complete {host pattern : List Nat} (hh : Str host) (hp : Str pattern)
    (w : Wild host pattern) :
    chr 42 pattern ≠ [] ∧ wildcardEnabled pattern = true ∧ wildcardMatch host pattern = true := by
  obtain ⟨⟨pre, suf, tail, hpre, mid, hsuf, htail, rfl, rfl, h1, h2, h3, h4, h5, h6, h7, h8, h9⟩, hx⟩ := w
  have hlab : 46 ∉ pre ++ 42 :: suf := by simp [h2, h3]
  have b46 : before 46 (pre ++ 42 :: suf ++ 46 :: tail) = pre ++ 42 :: suf := before_append hlab
  have c46 : chr 46 (pre ++ 42 :: suf ++ 46 :: tail) = 46 :: tail := chr_append hlab
  have hassoc : pre ++ 42 :: suf ++ 46 :: tail = pre ++ 42 :: (suf ++ 46 :: tail) := by simp
  have b42 : before 42 (pre ++ 42 :: suf ++ 46 :: tail) = pre := by rw [hassoc]; exact before_append h1
  have c42 : chr 42 (pre ++ 42 :: suf ++ 46 :: tail) = 42 :: (suf ++ 46 :: tail) := by
    rw [hassoc]; exact chr_append h1
  have hb46 : before 46 (hpre ++ mid ++ hsuf ++ 46 :: htail) = hpre ++ mid ++ hsuf := before_append h5
  have hc46 : chr 46 (hpre ++ mid ++ hsuf ++ 46 :: htail) = 46 :: htail := chr_append h5
  have l1 := h7.length
  have l2 := h8.length
  have lm : 0 < mid.length := List.length_pos_iff.2 h6
  refine ⟨by rw [c42]; simp, ?_, ?_⟩
  · simp only [wildcardEnabled, b46, c46, b42]
    have e2 : chr 46 tail ≠ [] := by rw [Ne, chr_nil_iff]; simp [h4]
    have hxn : rawNequal (pre ++ 42 :: suf ++ 46 :: tail) [120, 110, 45, 45] 4 = false := by
      cases h : rawNequal (pre ++ 42 :: suf ++ 46 :: tail) [120, 110, 45, 45] 4 with
      | false => rfl
      | true => exact absurd ((rawNequal_xn _ hp).1 h) hx
    rw [hxn]
    have hpl : ¬ pre.length > (pre ++ 42 :: suf).length := by simp
    simp [e2]
  · simp only [wildcardMatch, b46, c46, b42, c42, hb46, hc46, List.tail_cons]
    have hs1 : Str (46 :: tail) := (Str.append hp).2
    have hs2 : Str (46 :: htail) := (Str.append hh).2
    have req : rawEqual (46 :: tail) (46 :: htail) = true := by
      rw [rawEqual_iff _ _ hs1 hs2]
      simpa [eqCase_iff] using h9
    have hnl : ¬ (hpre ++ mid ++ hsuf).length < (pre ++ 42 :: suf).length := by
      simp; omega
    have hsl : (pre ++ 42 :: suf).length - (pre.length + 1) = suf.length := by simp; omega
    have hdrop : (hpre ++ mid ++ hsuf ++ 46 :: htail).drop ((hpre ++ mid ++ hsuf).length - suf.length)
        = hsuf ++ 46 :: htail := by
      have : (hpre ++ mid ++ hsuf).length - suf.length = (hpre ++ mid).length := by simp; omega
      rw [this, List.append_assoc (hpre ++ mid)]
      exact List.drop_left
    rw [hsl, hdrop]
    simp only [req, reduceCtorEq, decide_false, Bool.not_true, Bool.or_self, Bool.false_eq_true, if_false]
    rw [if_neg hnl]
    rw [Bool.and_eq_true]
    constructor
    · rw [rawNequal_iff _ _ _ (by simp) (by simp; omega)]
      have : (pre ++ 42 :: suf ++ 46 :: tail).take pre.length = pre := by simp
      rw [this]
      have : (hpre ++ mid ++ hsuf ++ 46 :: htail).take pre.length = hpre := by
        rw [l1]; simp
      rw [this]; exact h7
    · rw [rawNequal_iff _ _ _ (by simp) (by simp; omega)]
      have : (suf ++ 46 :: tail).take suf.length = suf := by simp
      rw [this]
      have : (hsuf ++ 46 :: htail).take suf.length = hsuf := by rw [l2]; simp
      rw [this]; exact h8

theorem EqCase.symm {a b : List Nat} (h : EqCase a b) : EqCase b a := Eq.symm h

/-- C10: a pattern matches a host name exactly when they are equal ignoring ASCII case, or the
wildcard rule applies: the star stands for one or more characters inside the first label of
the host, the rest agrees ignoring case, the pattern has at least two dots and no `xn--`
label in front, and the host is no IP address. -/
theorem C10_match_iff (I : Inet) (pattern host : List Nat) (hp : Str pattern) (hh : Str host)
    (hpn : pattern ≠ []) (hhn : host ≠ []) :
    hostcheck I pattern host = true ↔
      EqCase host pattern ∨ (Wild host pattern ∧ I.v4 host = none ∧ I.v6 host = none) := by
  have eq1 := rawEqual_iff host pattern hh hp
  have eq2 := rawEqual_iff pattern host hp hh
  simp only [hostcheck, hpn, hhn, decide_false, Bool.or_self, Bool.false_eq_true, if_false]
  by_cases he : EqCase host pattern
  · simp [eq1.2 he, he]
  · have n1 : ¬ rawEqual host pattern = true := fun h => he (eq1.1 h)
    have n2 : ¬ rawEqual pattern host = true := fun h => he (eq2.1 h).symm
    rw [if_neg n1]
    simp only [he, false_or]
    constructor
    · intro hm
      simp only [hostmatch] at hm
      split at hm
      · exact absurd hm n2
      · rename_i hstar
        split at hm
        · cases hm
        · rename_i h4
          split at hm
          · cases hm
          · rename_i h6
            split at hm
            · exact absurd hm n2
            · rename_i hen
              exact ⟨wildcard_sound hh hp hstar (by simpa using hen) hm,
                by simpa using h4, by simpa using h6⟩
    · rintro ⟨w, h4, h6⟩
      obtain ⟨w1, w2, w3⟩ := wildcard_complete hh hp w
      simp [hostmatch, w1, h4, h6, w2, w3]

/-- C10: an empty pattern or host never matches. -/
theorem C10_empty (I : Inet) (pattern host : List Nat) (h : pattern = [] ∨ host = []) :
    hostcheck I pattern host = false := by
  rcases h with h | h <;> simp [hostcheck, h]

/-- C10: an IP address as host is matched by nothing but its own text. -/
theorem C10_ip_host (I : Inet) (pattern host : List Nat) (hp : Str pattern) (hh : Str host)
    (hip : (I.v4 host).isSome ∨ (I.v6 host).isSome) (h : hostcheck I pattern host = true) :
    EqCase host pattern := by
  by_cases hpn : pattern = []
  · rw [C10_empty I _ _ (Or.inl hpn)] at h; cases h
  · by_cases hhn : host = []
    · rw [C10_empty I _ _ (Or.inr hhn)] at h; cases h
    · rcases (C10_match_iff I pattern host hp hh hpn hhn).1 h with h | ⟨_, h4, h6⟩
      · exact h
      · rcases hip with h | h
        · rw [h4] at h; cases h
        · rw [h6] at h; cases h

/-- An `inet_pton` for the examples: `1.2.3.4` and `::1` are the only addresses. -/
def exampleInet : Inet where
  v4 h := if h = [49, 46, 50, 46, 51, 46, 52] then some [1, 2, 3, 4] else none
  v6 h := if h = [58, 58, 49] then some (List.replicate 15 0 ++ [1]) else none

example : hostcheck exampleInet [70, 42, 111, 46, 69, 120, 97, 109, 112, 108, 101, 46, 99, 111, 109] [102, 111, 120, 111, 46, 101, 120, 97, 109, 112, 108, 101, 46, 67, 79, 77] = true := by decide
example : hostcheck exampleInet [42, 46, 101, 120, 97, 109, 112, 108, 101, 46, 99, 111, 109] [97, 46, 98, 46, 101, 120, 97, 109, 112, 108, 101, 46, 99, 111, 109] = false := by decide
example : hostcheck exampleInet [42, 46, 99, 111, 109] [101, 120, 97, 109, 112, 108, 101, 46, 99, 111, 109] = false := by decide
example : hostcheck exampleInet [120, 110, 45, 45, 42, 46, 101, 120, 97, 109, 112, 108, 101, 46, 99, 111, 109] [120, 110, 45, 45, 97, 98, 99, 46, 101, 120, 97, 109, 112, 108, 101, 46, 99, 111, 109] = false := by decide
example : Str [42, 46, 101, 120, 97, 109, 112, 108, 101, 46, 99, 111, 109] ∧ Str [119, 119, 119, 46, 101, 120, 97, 109, 112, 108, 101, 46, 99, 111, 109] := by unfold Str; decide

/-! ## C11 -/

/-- A certificate name text that can match: no NUL inside, at most 255 characters. -/
def Plain (b : List Nat) : Prop := Str b ∧ b.length ≤ 255

theorem plain_iff (b : List Nat) : b.length = nlen b ↔ Plain b := by
  unfold nlen Plain
  have hs : (before 0 b).length = b.length ↔ Str b := by
    constructor
    · intro h c hc h0
      have := split_at 0 b
      have hl : (chr 0 b).length = 0 := by
        have := congrArg List.length this; simp at this; omega
      have := (chr_nil_iff 0 b).1 (List.length_eq_zero_iff.1 hl)
      exact this (h0 ▸ hc)
    · intro h
      have h0 : (0 : Nat) ∉ b := fun hm => h 0 hm rfl
      have := split_at 0 b
      rw [(chr_nil_iff 0 b).2 h0, List.append_nil] at this
      rw [this]
  have hle : (before 0 b).length ≤ b.length := (List.takeWhile_sublist _).length_le
  simp only [maxName]
  rw [← hs]
  omega

theorem before_plain {b : List Nat} (h : Plain b) : before 0 b = b := by
  have h0 : (0 : Nat) ∉ b := fun hm => h.1 0 hm rfl
  have := split_at 0 b
  rw [(chr_nil_iff 0 b).2 h0, List.append_nil] at this
  exact this

theorem dnsMatch_iff (I : Inet) (host b : List Nat) :
    dnsMatch I host b = true ↔ Plain b ∧ hostcheck I b host = true := by
  unfold dnsMatch
  rw [Bool.and_eq_true, beq_iff_eq, plain_iff]
  constructor
  · rintro ⟨h1, h2⟩; rw [before_plain h1] at h2; exact ⟨h1, h2⟩
  · rintro ⟨h1, h2⟩; rw [before_plain h1]; exact ⟨h1, h2⟩

/-- Is this name of a kind that overrides the common name? -/
def San.isHost : San → Bool
  | .dns _ => true
  | .ip _ => true
  | .other => false

/-- The names that match the host. -/
def SanMatches (I : Inet) (host : List Nat) : San → Prop
  | .dns b => Plain b ∧ hostcheck I b host = true
  | .ip b => hostAddr I host = some b
  | .other => False

/-- No address entry is longer than the host's address. -/
def NoLongIp (I : Inet) (host : List Nat) (sans : List San) : Prop :=
  ∀ a b, hostAddr I host = some a → San.ip b ∈ sans → b.length ≤ a.length

theorem sanLoop_spec (I : Inet) (host : List Nat) : ∀ (sans : List San) (m : Option Bool),
    NoLongIp I host sans → m ≠ some true →
    ∃ r, sanLoop I host m sans = some r ∧
      (r = some true ↔ ∃ s ∈ sans, SanMatches I host s) ∧
      (r = none ↔ m = none ∧ ∀ s ∈ sans, s.isHost = false)
  | [], m, _, hm => by
    refine ⟨m, rfl, ?_, ?_⟩
    · simp [hm]
    · simp
  | .dns b :: l, m, hl, hm => by
    have hl' : NoLongIp I host l := fun a c h1 h2 => hl a c h1 (List.mem_cons_of_mem _ h2)
    simp only [sanLoop]
    by_cases hd : dnsMatch I host b = true
    · rw [if_pos hd]
      refine ⟨some true, rfl, ?_, ?_⟩
      · simp only [true_iff]
        exact ⟨.dns b, List.mem_cons_self .., (dnsMatch_iff I host b).1 hd⟩
      · simp only [reduceCtorEq, false_iff, not_and]
        intro _ h
        have := h (.dns b) (List.mem_cons_self ..)
        cases this
    · rw [if_neg hd]
      obtain ⟨r, r1, r2, r3⟩ := sanLoop_spec I host l (some false) hl' (by simp)
      refine ⟨r, r1, ?_, ?_⟩
      · rw [r2]
        constructor
        · rintro ⟨s, hs, h⟩; exact ⟨s, List.mem_cons_of_mem _ hs, h⟩
        · rintro ⟨s, hs, h⟩
          rcases List.mem_cons.1 hs with rfl | hs
          · exact absurd ((dnsMatch_iff I host b).2 h) hd
          · exact ⟨s, hs, h⟩
      · rw [r3]
        simp only [reduceCtorEq, false_and, false_iff, not_and]
        intro _ h
        have := h (.dns b) (List.mem_cons_self ..)
        cases this
  | .ip b :: l, m, hl, hm => by
    have hl' : NoLongIp I host l := fun a c h1 h2 => hl a c h1 (List.mem_cons_of_mem _ h2)
    simp only [sanLoop]
    have hcase : ipMatch (hostAddr I host) b = .ok ∧ hostAddr I host = some b ∨
        ipMatch (hostAddr I host) b = .mismatch ∧ hostAddr I host ≠ some b := by
      cases ha : hostAddr I host with
      | none => right; simp [ipMatch]
      | some a =>
        have := hl a b ha (List.mem_cons_self ..)
        simp only [ipMatch]
        rw [if_neg (by omega)]
        by_cases hb : b = a
        · left; simp [hb]
        · right
          have : ¬ a = b := fun h => hb h.symm
          simp [hb, this]
    rcases hcase with ⟨h1, h2⟩ | ⟨h1, h2⟩
    · rw [h1]
      refine ⟨some true, rfl, ?_, ?_⟩
      · simp only [true_iff]
        exact ⟨.ip b, List.mem_cons_self .., h2⟩
      · simp only [reduceCtorEq, false_iff, not_and]
        intro _ h
        have := h (.ip b) (List.mem_cons_self ..)
        cases this
    · rw [h1]
      obtain ⟨r, r1, r2, r3⟩ := sanLoop_spec I host l (some false) hl' (by simp)
      refine ⟨r, r1, ?_, ?_⟩
      · rw [r2]
        constructor
        · rintro ⟨s, hs, h⟩; exact ⟨s, List.mem_cons_of_mem _ hs, h⟩
        · rintro ⟨s, hs, h⟩
          rcases List.mem_cons.1 hs with rfl | hs
          · exact absurd h h2
          · exact ⟨s, hs, h⟩
      · rw [r3]
        simp only [reduceCtorEq, false_and, false_iff, not_and]
        intro _ h
        have := h (.ip b) (List.mem_cons_self ..)
        cases this
  | .other :: l, m, hl, hm => by
    have hl' : NoLongIp I host l := fun a c h1 h2 => hl a c h1 (List.mem_cons_of_mem _ h2)
    simp only [sanLoop]
    obtain ⟨r, r1, r2, r3⟩ := sanLoop_spec I host l m hl' hm
    refine ⟨r, r1, ?_, ?_⟩
    · rw [r2]
      constructor
      · rintro ⟨s, hs, h⟩; exact ⟨s, List.mem_cons_of_mem _ hs, h⟩
      · rintro ⟨s, hs, h⟩
        rcases List.mem_cons.1 hs with rfl | hs
        · exact h.elim
        · exact ⟨s, hs, h⟩
    · rw [r3]
      simp [San.isHost]

theorem cnCheck_iff (I : Inet) (host : List Nat) (cns : List (Option (List Nat))) :
    (cnCheck I host cns = .ok ↔ ∃ b, cns.getLast? = some (some b) ∧ Plain b ∧
      hostcheck I b host = true) ∧ cnCheck I host cns ≠ .ub := by
  unfold cnCheck
  cases h : cns.getLast? with
  | none => simp
  | some o =>
    cases o with
    | none => simp
    | some b =>
      simp only [Option.some.injEq, ne_eq]
      by_cases hp : b.length = nlen b
      · have hpl := (plain_iff b).1 hp
        rw [if_neg (by simpa using hp), before_plain hpl]
        by_cases hc : hostcheck I b host = true
        · simp only [hc, if_true, true_iff, reduceCtorEq, not_false_eq_true, and_true]
          exact ⟨b, rfl, hpl, hc⟩
        · simp only [hc, if_false, reduceCtorEq, false_iff, not_false_eq_true, and_true]
          rintro ⟨c, rfl, _, h3⟩
          exact hc h3
      · rw [if_pos hp]
        simp only [reduceCtorEq, false_iff, not_false_eq_true, and_true]
        rintro ⟨c, rfl, h2, _⟩
        exact hp ((plain_iff _).2 h2)

/-- C11: the check succeeds exactly when some DNS or IP name matches the host, or there is no
DNS or IP name and the last common name matches.  The part that is missing is the case of an
address entry longer than the host's address, see `C11_long_address_false`. -/
theorem C11_accepts_iff_partial (I : Inet) (host : List Nat) (sans : List San)
    (cns : List (Option (List Nat))) (hl : NoLongIp I host sans) :
    (verifyhost I host sans cns = .ok ↔
      (∃ s ∈ sans, SanMatches I host s) ∨
      ((∀ s ∈ sans, s.isHost = false) ∧
        ∃ b, cns.getLast? = some (some b) ∧ Plain b ∧ hostcheck I b host = true)) ∧
    verifyhost I host sans cns ≠ .ub := by
  obtain ⟨r, r1, r2, r3⟩ := sanLoop_spec I host sans none hl (by simp)
  unfold verifyhost
  rw [r1]
  match r, r2, r3 with
  | some true, r2, _ => simp [r2.1 rfl]
  | some false, r2, r3 =>
    have h1 : ¬ ∃ s ∈ sans, SanMatches I host s := fun h => by have := r2.2 h; cases this
    have h2 : ¬ ∀ s ∈ sans, s.isHost = false := fun h => by have := r3.2 ⟨rfl, h⟩; cases this
    simp [h1, h2]
  | none, r2, r3 =>
    have h1 : ¬ ∃ s ∈ sans, SanMatches I host s := fun h => by have := r2.2 h; cases this
    have h2 := (r3.1 rfl).2
    have hc := cnCheck_iff I host cns
    constructor
    · simp only []
      rw [hc.1]
      constructor
      · intro h; exact Or.inr ⟨h2, h⟩
      · rintro (h | ⟨_, h⟩)
        · exact absurd h h1
        · exact h
    · exact hc.2

/-- C11: a certificate with a DNS or IP name, none of which matches, is refused whatever its
common names are. -/
theorem C11_common_name_ignored (I : Inet) (host : List Nat) (sans : List San)
    (cns : List (Option (List Nat))) (hex : ∃ s ∈ sans, s.isHost = true)
    (hno : ∀ s ∈ sans, ¬ SanMatches I host s) : verifyhost I host sans cns ≠ .ok := by
  have key : ∀ (l : List San) (m : Option Bool), (∀ s ∈ l, ¬ SanMatches I host s) → m ≠ some true →
      (m = some false ∨ ∃ s ∈ l, s.isHost = true) →
      sanLoop I host m l = none ∨ sanLoop I host m l = some (some false) := by
    intro l
    induction l with
    | nil =>
      intro m _ hm h
      rcases h with h | ⟨s, hs, _⟩
      · right; simp [sanLoop, h]
      · simp at hs
    | cons s l ih =>
      intro m hn hm h
      have hn' := fun x hx => hn x (List.mem_cons_of_mem _ hx)
      have hs := hn s (List.mem_cons_self ..)
      cases s with
      | dns b =>
        have : ¬ dnsMatch I host b = true := fun hd => hs ((dnsMatch_iff I host b).1 hd)
        simp only [sanLoop, this]
        exact ih (some false) hn' (by simp) (Or.inl rfl)
      | ip b =>
        simp only [sanLoop]
        cases hi : ipMatch (hostAddr I host) b with
        | ub => exact Or.inl rfl
        | ok =>
          exfalso
          unfold ipMatch at hi
          cases ha : hostAddr I host with
          | none => rw [ha] at hi; cases hi
          | some a =>
            rw [ha] at hi
            simp only at hi
            split at hi
            · cases hi
            · split at hi
              · rename_i hba
                exact hs (by simp only [SanMatches]; rw [ha, hba])
              · cases hi
        | mismatch => exact ih (some false) hn' (by simp) (Or.inl rfl)
      | other =>
        simp only [sanLoop]
        apply ih m hn' hm
        rcases h with h | ⟨x, hx, hxh⟩
        · exact Or.inl h
        · rcases List.mem_cons.1 hx with rfl | hx
          · cases hxh
          · exact Or.inr ⟨x, hx, hxh⟩
  rcases key sans none hno (by simp) (Or.inr hex) with h | h <;> simp [verifyhost, h]

/-- C11 is false as a safety statement: with an address entry longer than the host's address
(an IPv6 name in the certificate of a server addressed by IPv4) the comparison reads behind
the address. -/
theorem C11_long_address_false (I : Inet) (host a b : List Nat) (l : List San)
    (cns : List (Option (List Nat))) (ha : hostAddr I host = some a) (hb : a.length < b.length) :
    verifyhost I host (.ip b :: l) cns = .ub := by
  simp [verifyhost, sanLoop, ipMatch, ha, hb]

example : verifyhost exampleInet [49, 46, 50, 46, 51, 46, 52] [.ip (List.replicate 16 0), .ip [1, 2, 3, 4]] [] = .ub := by
  decide

example : verifyhost exampleInet [119, 119, 119, 46, 101, 120, 97, 109, 112, 108, 101, 46, 99, 111, 109] [.other] [some [120], some [42, 46, 101, 120, 97, 109, 112, 108, 101, 46, 99, 111, 109]] = .ok := by
  decide
example : verifyhost exampleInet [119, 119, 119, 46, 101, 120, 97, 109, 112, 108, 101, 46, 99, 111, 109] [.other, .dns [109, 97, 105, 108, 46, 101, 120, 97, 109, 112, 108, 101, 46, 99, 111, 109]]
    [some [119, 119, 119, 46, 101, 120, 97, 109, 112, 108, 101, 46, 99, 111, 109]] = .mismatch := by decide
example : verifyhost exampleInet [119, 119, 119, 46, 101, 120, 97, 109, 112, 108, 101, 46, 99, 111, 109] [.dns ([119, 119, 119, 46, 101, 120, 97, 109, 112, 108, 101, 46, 99, 111, 109] ++ [0] ++ [46, 101, 118, 105, 108, 46, 99, 111, 109])] [] =
    .mismatch := by decide

/-- C11: without a peer certificate the check succeeds only if SRP is enabled. -/
theorem C11_no_certificate (I : Inet) (srp : Bool) (host : List Nat) :
    checkFqdn I srp host none = .ok ↔ srp = true := by
  cases srp <;> simp [checkFqdn]

end Verif.Host
