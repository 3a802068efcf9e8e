import Verif.GetOptSpec
import Verif.SampleArgsProps

/-!
# C133: taking a command line apart
-/
namespace Verif.GetOpt

theorem dropWhile_ne {c : Nat} : ∀ (a b : List Nat), c ∉ a → (a ++ c :: b).dropWhile (· ≠ c) = c :: b
  | [], b, _ => by simp
  | x :: a, b, h => by
    have hx : x ≠ c := fun e => h (by simp [e])
    rw [List.cons_append, List.dropWhile_cons, if_pos (by simp [hx])]
    exact dropWhile_ne a b (fun hm => h (by simp [hm]))

theorem dropWhile_none {c : Nat} : ∀ (a : List Nat), c ∉ a → a.dropWhile (· ≠ c) = []
  | [], _ => rfl
  | x :: a, h => by
    have hx : x ≠ c := fun e => h (by simp [e])
    rw [List.dropWhile_cons, if_pos (by simp [hx])]
    exact dropWhile_none a (fun hm => h (by simp [hm]))

theorem takeWhile_ne {c : Nat} : ∀ (a b : List Nat), c ∉ a → (a ++ c :: b).takeWhile (· ≠ c) = a
  | [], b, _ => by simp
  | x :: a, b, h => by
    have hx : x ≠ c := fun e => h (by simp [e])
    rw [List.cons_append, List.takeWhile_cons, if_pos (by simp [hx]), takeWhile_ne a b (fun hm => h (by simp [hm]))]

theorem takeWhile_all {c : Nat} : ∀ (a : List Nat), c ∉ a → a.takeWhile (· ≠ c) = a
  | [], _ => rfl
  | x :: a, h => by
    have hx : x ≠ c := fun e => h (by simp [e])
    rw [List.takeWhile_cons, if_pos (by simp [hx]), takeWhile_all a (fun hm => h (by simp [hm]))]

/-- A list with an element, split at the first. -/
theorem split_first {c : Nat} : ∀ (l : List Nat), c ∈ l → ∃ a b, l = a ++ c :: b ∧ c ∉ a
  | [], h => by cases h
  | x :: l, h => by
    by_cases hx : x = c
    · exact ⟨[], l, by rw [hx]; rfl, by simp⟩
    · obtain ⟨a, b, e, hn⟩ := split_first l (by simpa [Ne.symm hx] using h)
      exact ⟨x :: a, b, by rw [e]; rfl, by simp [Ne.symm hx, hn]⟩

theorem needs_flag {ostr : List Nat} {c : Nat} (h : Flag ostr c) : (if c = 58 then none else needs ostr c) = some false := by
  obtain ⟨h1, _, _, a, b, rfl, h2, h3⟩ := h
  rw [if_neg h1, needs, dropWhile_ne a b h2]
  simp [h3]

theorem needs_valued {ostr : List Nat} {c : Nat} (h : Valued ostr c) : (if c = 58 then none else needs ostr c) = some true := by
  obtain ⟨h1, _, _, a, b, rfl, h2⟩ := h
  rw [if_neg h1, needs, dropWhile_ne a _ h2]
  simp

theorem needs_none {ostr : List Nat} {c : Nat} (h : c ∉ ostr) : needs ostr c = none := by
  rw [needs, dropWhile_none ostr h]

/-- The loop over the table finds the first entry with this name, or else the first that begins so. -/
theorem search_eq (n : List Nat) : ∀ es k m, search n es k m =
    ((es.findIdx? fun e => e.name = n).map (· + k)).or (m.or ((es.findIdx? fun e => n.isPrefixOf e.name).map (· + k))) := by
  intro es
  induction es with
  | nil => intro k m; cases m <;> rfl
  | cons e es ih =>
    intro k m
    unfold search
    rw [List.findIdx?_cons, List.findIdx?_cons]
    by_cases hp : n.isPrefixOf e.name = true
    · rw [if_pos hp]
      by_cases hl : e.name.length = n.length
      · rw [if_pos hl]
        have he : e.name = n := by
          obtain ⟨t, ht⟩ := List.isPrefixOf_iff_prefix.1 hp
          have : t = [] := by
            have := congrArg List.length ht
            rw [List.length_append] at this
            exact List.length_eq_zero_iff.1 (by omega)
          subst this
          rw [← ht, List.append_nil]
        simp [he]
      · rw [if_neg hl]
        have he : e.name ≠ n := fun h => hl (by rw [h])
        rw [ih]
        simp only [he, decide_false, Bool.false_eq_true, if_false, hp, if_true, Option.map_map]
        have e1 : ((fun x => x + k) ∘ fun i => i + 1) = (fun x => x + (k + 1)) := by funext x; simp; omega
        rw [e1]
        cases m <;> simp
    · rw [if_neg hp]
      have he : e.name ≠ n := by
        intro h
        apply hp
        rw [h]
        exact List.isPrefixOf_iff_prefix.2 (List.prefix_refl n)
      rw [ih]
      simp only [he, decide_false, Bool.false_eq_true, if_false, hp, Option.map_map]
      have e1 : ((fun x => x + k) ∘ fun i => i + 1) = (fun x => x + (k + 1)) := by funext x; simp; omega
      rw [e1]

theorem findIdx?_of {es : List Entry} {p : Entry → Bool} {i : Nat} {e : Entry} (h : es[i]? = some e) (hp : p e = true)
    (hf : ∀ j d, j < i → es[j]? = some d → p d = false) : es.findIdx? p = some i := by
  rw [List.findIdx?_eq_some_iff_getElem]
  obtain ⟨hi, rfl⟩ := List.getElem?_eq_some_iff.1 h
  refine ⟨hi, hp, ?_⟩
  intro j hj
  rw [hf j _ hj (List.getElem?_eq_getElem (by omega))]
  decide

theorem search_named {table : List Entry} {n : List Nat} {i : Nat} (h : Named table n i) : search n table 0 none = some i := by
  rw [search_eq]
  rcases h with ⟨e, h1, h2, h3⟩ | ⟨⟨e, h1, h2⟩, h3⟩
  · rw [findIdx?_of (i := i) (e := e) h1 (by simp [h2]) (fun j d hj hd => by simpa using h3 j d hj hd)]
    rfl
  · have hp : table.findIdx? (fun e => n.isPrefixOf e.name) = some i := by
      refine findIdx?_of h1 (List.isPrefixOf_iff_prefix.2 h2) ?_
      intro j d hj hd
      cases hb : n.isPrefixOf d.name with
      | false => rfl
      | true =>
        have := h3 j d hd (List.isPrefixOf_iff_prefix.1 hb)
        omega
    rw [hp]
    cases hf : table.findIdx? (fun e => e.name = n) with
    | none => rfl
    | some k =>
      rw [List.findIdx?_eq_some_iff_getElem] at hf
      obtain ⟨hk, hn, _⟩ := hf
      have hn' : table[k].name = n := by simpa using hn
      have := h3 k table[k] (List.getElem?_eq_getElem hk) (by rw [hn']; exact List.prefix_refl n)
      subst this
      rfl

theorem search_none {table : List Entry} {n : List Nat} (h : ∀ e ∈ table, ¬ n <+: e.name) : search n table 0 none = none := by
  rw [search_eq]
  have h1 : table.findIdx? (fun e => e.name = n) = none := by
    rw [List.findIdx?_eq_none_iff]
    intro e he
    simp only [decide_eq_false_iff_not]
    intro hn
    exact h e he (by rw [hn]; exact List.prefix_refl n)
  have h2 : table.findIdx? (fun e => n.isPrefixOf e.name) = none := by
    rw [List.findIdx?_eq_none_iff]
    intro e he
    cases hb : n.isPrefixOf e.name with
    | false => rfl
    | true => exact absurd (List.isPrefixOf_iff_prefix.1 hb) (h e he)
  rw [h1, h2]
  rfl

theorem search_lt {table : List Entry} {n : List Nat} {i : Nat} (h : search n table 0 none = some i) : i < table.length := by
  rw [search_eq] at h
  cases h1 : table.findIdx? (fun e => e.name = n) with
  | some k =>
    rw [h1] at h
    have : k = i := by simpa using h
    subst this
    rw [List.findIdx?_eq_some_iff_getElem] at h1
    exact h1.1
  | none =>
    rw [h1] at h
    cases h2 : table.findIdx? (fun e => n.isPrefixOf e.name) with
    | none => rw [h2] at h; cases h
    | some k =>
      rw [h2] at h
      have : k = i := by simpa using h
      subst this
      rw [List.findIdx?_eq_some_iff_getElem] at h2
      exact h2.1

theorem drop_cons {argv : List (List Nat)} {k : Nat} {w : List Nat} {args : List (List Nat)} (h : argv.drop k = w :: args) :
    k < argv.length ∧ argv[k]? = some w ∧ argv.drop (k + 1) = args := by
  have hk : k < argv.length := by
    rcases Nat.lt_or_ge k argv.length with hl | hl
    · exact hl
    · rw [List.drop_of_length_le hl] at h; cases h
  have e := List.drop_eq_getElem_cons hk
  rw [h] at e
  simp only [List.cons.injEq] at e
  exact ⟨hk, by rw [List.getElem?_eq_getElem hk, e.1], e.2.symm⟩

theorem drop_nil {argv : List (List Nat)} {k : Nat} (h : argv.drop k = []) : argv.length ≤ k := by
  simpa using h

/-- The words behind the current one. -/
def after (argv : List (List Nat)) (s : St) : List (List Nat) :=
  argv.drop (if s.place = [] then s.optind else s.optind + 1)

theorem internal_long {argv : List (List Nat)} {ostr : List Nat} {s : St} {n : List Nat} {args : List (List Nat)} (hp : s.place = [])
    (h : argv.drop s.optind = (45 :: 45 :: n) :: args) : internal argv ostr s = .ret (-2) s := by
  obtain ⟨h1, h2, _⟩ := drop_cons h
  unfold internal
  rw [if_pos hp, if_neg (by omega), read, if_pos (by omega), h2]
  simp

theorem internal_word {argv : List (List Nat)} {ostr : List Nat} {s : St} {c : Nat} {cs : List Nat} {args : List (List Nat)}
    (hp : s.place = []) (hc : c ≠ 45) (h : argv.drop s.optind = (45 :: c :: cs) :: args) :
    internal argv ostr s = letter argv ostr { s with place := c :: cs } := by
  obtain ⟨h1, h2, _⟩ := drop_cons h
  unfold internal
  rw [if_pos hp, if_neg (by omega), read, if_pos (by omega), h2]
  simp [hc]

theorem getoptLong_of {argv : List (List Nat)} {ostr : List Nat} {table : List Entry} {s s' : St} {r : Int}
    (h : internal argv ostr s = .ret r s') (hr : r ≠ -2) : getoptLong argv ostr table s = .ret r s' := by
  unfold getoptLong
  rw [h]
  simp [hr]

/-- A call inside a word is one from the beginning of the word. -/
theorem internal_place {argv : List (List Nat)} {ostr : List Nat} {s : St} (hp : s.place ≠ []) :
    internal argv ostr s = letter argv ostr s := by
  unfold internal
  rw [if_neg hp]

theorem event_letter {table : List Entry} {c : Nat} {s : St} (h0 : c ≠ 0) (h1 : c ≠ 58) (h2 : c ≠ 63) :
    event table (c : Int) s = .letter c s.optarg := by
  unfold event
  rw [if_neg (by omega), if_neg (by omega)]
  simp

theorem loop_letter {argv : List (List Nat)} {ostr : List Nat} {table : List Entry} {s s' : St} {c k : Nat}
    (h : letter argv ostr s = .ret c s') (hp : s.place ≠ []) (h0 : c ≠ 0) (h1 : c ≠ 58) (h2 : c ≠ 63) :
    loop argv ostr table (k + 1) s = (loop argv ostr table k s').push (.letter c s'.optarg) := by
  rw [loop, getoptLong_of (by rw [internal_place hp]; exact h) (by omega)]
  dsimp only
  rw [if_neg (by omega), event_letter h0 h1 h2]

theorem loop_reads (argv : List (List Nat)) (ostr : List Nat) (table : List Entry) {place : List Nat} {args : List (List Nat)}
    {es : List Event} {rest : List (List Nat)} (h : Reads ostr table place args es rest) : ∀ k s, es.length < k → s.place = place →
    after argv s = args → loop argv ostr table k s = .ok es rest := by
  induction h with
  | none =>
    intro k s hk hp ha
    obtain ⟨k, rfl⟩ : ∃ j, k = j + 1 := ⟨k - 1, by omega⟩
    rw [after, if_pos hp] at ha
    have hl := drop_nil ha
    have hi : internal argv ostr s = .ret (-1) s := by
      unfold internal
      rw [if_pos hp, if_pos hl]
    rw [loop, getoptLong_of hi (by decide)]
    simp [ha]
  | dashes args =>
    intro k s hk hp ha
    obtain ⟨k, rfl⟩ : ∃ j, k = j + 1 := ⟨k - 1, by omega⟩
    rw [after, if_pos hp] at ha
    obtain ⟨h1, h2, h3⟩ := drop_cons ha
    rw [loop, getoptLong, internal_long hp ha]
    simp only [ne_eq, not_true_eq_false, if_false]
    rw [read, if_pos (by omega), h2]
    simp [h3]
  | plain w args hw =>
    intro k s hk hp ha
    obtain ⟨k, rfl⟩ : ∃ j, k = j + 1 := ⟨k - 1, by omega⟩
    rw [after, if_pos hp] at ha
    obtain ⟨h1, h2, h3⟩ := drop_cons ha
    have hi : internal argv ostr s = .ret (-1) s := by
      unfold internal
      rw [if_pos hp, if_neg (by omega), read, if_pos (by omega), h2]
      dsimp only
      rw [if_pos hw]
    rw [loop, getoptLong_of hi (by decide)]
    simp [ha]
  | dash args ho =>
    intro k s hk hp ha
    obtain ⟨k, rfl⟩ : ∃ j, k = j + 1 := ⟨k - 1, by omega⟩
    rw [after, if_pos hp] at ha
    obtain ⟨h1, h2, h3⟩ := drop_cons ha
    have hi : internal argv ostr s = .ret (-1) { s with place := [] } := by
      unfold internal
      rw [if_pos hp, if_neg (by omega), read, if_pos (by omega), h2]
      simp only [List.head?_cons, ne_eq, not_true_eq_false, if_false, List.tail_cons]
      unfold letter
      simp [needs_none ho]
    rw [loop, getoptLong_of hi (by decide)]
    simp [ha]
  | word c cs args es rest hc _ ih =>
    intro k s hk hp ha
    obtain ⟨k, rfl⟩ : ∃ j, k = j + 1 := ⟨k - 1, by omega⟩
    rw [after, if_pos hp] at ha
    obtain ⟨h1, h2, h3⟩ := drop_cons ha
    have := ih (k + 1) { s with place := c :: cs } hk rfl (by rw [after, if_neg (by simp)]; exact h3)
    rw [loop, getoptLong, internal_word hp hc ha]
    rw [loop, getoptLong, internal_place (by simp)] at this
    exact this
  | flag c cs args es rest hf _ ih =>
    intro k s hk hp ha
    obtain ⟨k, rfl⟩ : ∃ j, k = j + 1 := ⟨k - 1, by omega⟩
    have hl : letter argv ostr s = .ret c { s with place := cs, optarg := none, optind := if cs = [] then s.optind + 1 else s.optind } := by
      unfold letter
      rw [hp]
      dsimp only
      rw [needs_flag hf]
    rw [loop_letter hl (by rw [hp]; simp) hf.2.2.1 hf.1 hf.2.1]
    rw [after, if_neg (by rw [hp]; simp)] at ha
    rw [ih k _ (by simp only [List.length_cons] at hk; omega) rfl (by
      rw [after]
      dsimp only
      split <;> exact ha)]
    rfl
  | here c v args es rest hv hne _ ih =>
    intro k s hk hp ha
    obtain ⟨k, rfl⟩ : ∃ j, k = j + 1 := ⟨k - 1, by omega⟩
    have hl : letter argv ostr s = .ret c { s with place := [], optarg := some v, optind := s.optind + 1 } := by
      unfold letter
      rw [hp]
      dsimp only
      rw [needs_valued hv]
      simp [hne]
    rw [loop_letter hl (by rw [hp]; simp) hv.2.2.1 hv.1 hv.2.1]
    rw [after, if_neg (by rw [hp]; simp)] at ha
    rw [ih k _ (by simp only [List.length_cons] at hk; omega) rfl (by rw [after, if_pos rfl]; exact ha)]
    rfl
  | next c v args es rest hv _ ih =>
    intro k s hk hp ha
    obtain ⟨k, rfl⟩ : ∃ j, k = j + 1 := ⟨k - 1, by omega⟩
    rw [after, if_neg (by rw [hp]; simp)] at ha
    obtain ⟨h1, h2, h3⟩ := drop_cons ha
    have hl : letter argv ostr s = .ret c { s with place := [], optarg := some v, optind := s.optind + 2 } := by
      unfold letter
      rw [hp]
      dsimp only
      rw [needs_valued hv]
      dsimp only
      rw [if_neg (by simp), if_neg (by omega), read, if_pos (by omega), h2]
    rw [loop_letter hl (by rw [hp]; simp) hv.2.2.1 hv.1 hv.2.1]
    rw [ih k _ (by simp only [List.length_cons] at hk; omega) rfl (by rw [after, if_pos rfl]; exact h3)]
    rfl
  | unknown c cs args hc hd h0 =>
    intro k s hk hp ha
    obtain ⟨k, rfl⟩ : ∃ j, k = j + 1 := ⟨k - 1, by omega⟩
    have hl : ∃ r s', letter argv ostr s = .ret r s' ∧ (r = 63 ∨ r = 58) := by
      unfold letter
      rw [hp]
      dsimp only
      by_cases hn : (if c = 58 then none else needs ostr c) = none
      · rw [hn]
        dsimp only
        rw [if_neg hd]
        exact ⟨_, _, rfl, .inl rfl⟩
      · have hc63 : c = 63 := by
          rcases hc with hc | hc | hc
          · rw [if_pos hc] at hn; exact absurd rfl hn
          · exact hc
          · by_cases h58 : c = 58
            · rw [if_pos h58] at hn; exact absurd rfl hn
            · rw [if_neg h58, needs_none hc] at hn; exact absurd rfl hn
        subst hc63
        cases hm : (if (63 : Nat) = 58 then none else needs ostr 63) with
        | none => exact absurd hm hn
        | some b =>
          cases b with
          | false => exact ⟨_, _, rfl, .inl rfl⟩
          | true =>
            dsimp only
            split
            · exact ⟨_, _, rfl, .inl rfl⟩
            · split
              · exact ⟨_, _, rfl, .inr rfl⟩
              · rw [read, if_pos (by omega)]
                exact ⟨_, _, rfl, .inl rfl⟩
    obtain ⟨r, s', hl, hr⟩ := hl
    rw [loop, getoptLong_of (by rw [internal_place (by rw [hp]; simp)]; exact hl) (by omega)]
    dsimp only
    have he : event table r s' = .bad := by
      unfold event
      rw [if_neg (by omega), if_pos (by omega)]
    rw [if_neg (by omega), he]
  | missing c hv =>
    intro k s hk hp ha
    obtain ⟨k, rfl⟩ : ∃ j, k = j + 1 := ⟨k - 1, by omega⟩
    rw [after, if_neg (by rw [hp]; simp)] at ha
    have hlen := drop_nil ha
    have hl : letter argv ostr s = .ret 58 { s with place := [], optind := s.optind + 1 } := by
      unfold letter
      rw [hp]
      dsimp only
      rw [needs_valued hv]
      dsimp only
      rw [if_neg (by simp), if_pos hlen]
    rw [loop, getoptLong_of (by rw [internal_place (by rw [hp]; simp)]; exact hl) (by decide)]
    rfl
  | longEq n v i e args es rest hne h61 hn he hh _ ih =>
    intro k s hk hp ha
    obtain ⟨k, rfl⟩ : ∃ j, k = j + 1 := ⟨k - 1, by omega⟩
    rw [after, if_pos hp] at ha
    obtain ⟨h1, h2, h3⟩ := drop_cons ha
    have hg : getoptLong argv ostr table s = .ret 0 { s with optarg := some v, optind := s.optind + 1, index := i } := by
      rw [getoptLong, internal_long hp ha]
      simp only [ne_eq, not_true_eq_false, if_false]
      rw [read, if_pos (by omega), h2]
      have e1 : hasEqual (n ++ 61 :: v) = some v := by rw [hasEqual, dropWhile_ne n v h61]
      simp only [List.drop_succ_cons, List.drop_zero, takeWhile_ne n v h61, search_named hn, he, hh, e1]
      simp
    rw [loop, hg]
    have hev : event table 0 { s with optarg := some v, optind := s.optind + 1, index := i } = .long i (some v) := by
      unfold event
      rw [if_pos rfl]
      dsimp only
      rw [he]
      obtain ⟨m, b⟩ := e
      cases b with
      | no => exact absurd rfl hh
      | required => rfl
      | optional => rfl
    dsimp only
    rw [if_neg (by decide), hev]
    dsimp only
    rw [ih k { s with optarg := some v, optind := s.optind + 1, index := i } (by simp only [List.length_cons] at hk; omega) hp (by rw [after, if_pos hp]; exact h3)]
    rfl
  | longNext n v i e args es rest hne h61 hn he hh _ ih =>
    intro k s hk hp ha
    obtain ⟨k, rfl⟩ : ∃ j, k = j + 1 := ⟨k - 1, by omega⟩
    rw [after, if_pos hp] at ha
    obtain ⟨h1, h2, h3⟩ := drop_cons ha
    obtain ⟨g1, g2, g3⟩ := drop_cons h3
    have hg : getoptLong argv ostr table s = .ret 0 { s with optarg := some v, optind := s.optind + 2, index := i } := by
      rw [getoptLong, internal_long hp ha]
      simp only [ne_eq, not_true_eq_false, if_false]
      rw [read, if_pos (by omega), h2]
      have e1 : hasEqual n = none := by rw [hasEqual, dropWhile_none n h61]
      simp only [List.drop_succ_cons, List.drop_zero, takeWhile_all n h61, search_named hn, he, hh, e1, hne, if_false, reduceCtorEq]
      rw [read, if_pos (by omega), g2]
      simp
    rw [loop, hg]
    have hev : event table 0 { s with optarg := some v, optind := s.optind + 2, index := i } = .long i (some v) := by
      unfold event
      rw [if_pos rfl]
      dsimp only
      rw [he]
      obtain ⟨m, b⟩ := e
      cases b with
      | no => cases hh
      | required => rfl
      | optional => rfl
    dsimp only
    rw [if_neg (by decide), hev]
    dsimp only
    rw [ih k { s with optarg := some v, optind := s.optind + 2, index := i } (by simp only [List.length_cons] at hk; omega) hp (by rw [after, if_pos hp]; exact g3)]
    rfl
  | longFlag n i e args es rest hne h61 hn he hh _ ih =>
    intro k s hk hp ha
    obtain ⟨k, rfl⟩ : ∃ j, k = j + 1 := ⟨k - 1, by omega⟩
    rw [after, if_pos hp] at ha
    obtain ⟨h1, h2, h3⟩ := drop_cons ha
    have hg : getoptLong argv ostr table s = .ret 0 { s with optind := s.optind + 1, index := i } := by
      rw [getoptLong, internal_long hp ha]
      simp only [ne_eq, not_true_eq_false, if_false]
      rw [read, if_pos (by omega), h2]
      simp only [List.drop_succ_cons, List.drop_zero, takeWhile_all n h61, search_named hn, he, hh, hne, if_false, if_true]
    rw [loop, hg]
    have hev : event table 0 { s with optind := s.optind + 1, index := i } = .long i none := by
      unfold event
      rw [if_pos rfl]
      dsimp only
      rw [he]
      obtain ⟨m, b⟩ := e
      cases hh
      rfl
    dsimp only
    rw [if_neg (by decide), hev]
    dsimp only
    rw [ih k { s with optind := s.optind + 1, index := i } (by simp only [List.length_cons] at hk; omega) hp (by rw [after, if_pos hp]; exact h3)]
    rfl
  | longUnknown n args hne hu =>
    intro k s hk hp ha
    obtain ⟨k, rfl⟩ : ∃ j, k = j + 1 := ⟨k - 1, by omega⟩
    rw [after, if_pos hp] at ha
    obtain ⟨h1, h2, h3⟩ := drop_cons ha
    have hg : getoptLong argv ostr table s = .ret 63 { s with optind := s.optind + 1 } := by
      rw [getoptLong, internal_long hp ha]
      simp only [ne_eq, not_true_eq_false, if_false]
      rw [read, if_pos (by omega), h2]
      simp only [List.drop_succ_cons, List.drop_zero, search_none hu, hne, if_false]
    rw [loop, hg]
    rfl
  | longMissing n i e hne h61 hn he hh =>
    intro k s hk hp ha
    obtain ⟨k, rfl⟩ : ∃ j, k = j + 1 := ⟨k - 1, by omega⟩
    rw [after, if_pos hp] at ha
    obtain ⟨h1, h2, h3⟩ := drop_cons ha
    have hlen := drop_nil h3
    have hg : getoptLong argv ostr table s = .ret 58 { s with optarg := none, optind := s.optind + 2 } := by
      rw [getoptLong, internal_long hp ha]
      simp only [ne_eq, not_true_eq_false, if_false]
      rw [read, if_pos (by omega), h2]
      have e1 : hasEqual n = none := by rw [hasEqual, dropWhile_none n h61]
      simp only [List.drop_succ_cons, List.drop_zero, takeWhile_all n h61, search_named hn, he, hh, e1, hne, if_false, reduceCtorEq]
      rw [read, if_pos (by omega), List.getElem?_eq_none (by omega)]
      simp
    rw [loop, hg]
    rfl

/-- The number of events is bounded by the length of the command line. -/
theorem reads_length {ostr : List Nat} {table : List Entry} {place : List Nat} {args : List (List Nat)} {es : List Event}
    {rest : List (List Nat)} (h : Reads ostr table place args es rest) :
    es.length ≤ place.length + (args.map fun w => w.length + 1).sum := by
  induction h <;> simp only [List.length_cons, List.length_nil, List.map_cons, List.sum_cons, List.map_nil, List.sum_nil,
    List.length_append] at * <;> omega

/-- Options that are written in one of the usual ways are understood: the loop sees them in their order with
their arguments, and something bad exactly where there is a letter or a name that there is not, or an argument
is missing. -/
theorem C133_reads (argv : List (List Nat)) (ostr : List Nat) (table : List Entry) (es : List Event) (rest : List (List Nat))
    (h : Reads ostr table [] (argv.drop 1) es rest) : parse argv ostr table = .ok es rest := by
  unfold parse
  refine loop_reads argv ostr table h _ {} ?_ rfl rfl
  have := reads_length h
  have h2 : ((argv.drop 1).map fun w => w.length + 1).sum ≤ (argv.map fun w => w.length + 1).sum := by
    cases argv with
    | nil => simp
    | cons w argv => simp
  simp only [List.length_nil] at this
  omega

/-- A command line has one meaning. -/
theorem C133_unique (ostr : List Nat) (table : List Entry) (args : List (List Nat)) (es es' : List Event) (rest rest' : List (List Nat))
    (h : Reads ostr table [] args es rest) (h' : Reads ostr table [] args es' rest') : es = es' ∧ rest = rest' := by
  have h1 := C133_reads ([] :: args) ostr table es rest h
  have h2 := C133_reads ([] :: args) ostr table es' rest' h'
  rw [h1] at h2
  cases h2
  exact ⟨rfl, rfl⟩

/-- Letters together, a value in the same word, one in the next, long options in both ways, and a word at
the end. -/
def exLine : List (List Nat) :=
  [[101, 115, 116, 99, 108, 105, 101, 110, 116], [45, 103, 101], [45, 111, 111, 117, 116], [45, 115], [101, 115, 116, 46, 101, 120, 97, 109, 112, 108, 101], [45, 45, 99, 111, 109, 109, 111, 110, 45, 110, 97, 109, 101, 61, 100, 101, 118, 45, 49], [45, 45, 115, 114, 112], [45, 45, 115, 114, 112, 45, 117], [109, 101], [45, 45], [45, 118]]

theorem exLine_reads : Reads clientLetters clientTable [] (exLine.drop 1)
    [.letter 103 none, .letter 101 none, .letter 111 (some [111, 117, 116]), .letter 115 (some [101, 115, 116, 46, 101, 120, 97, 109, 112, 108, 101]), .long 5 (some [100, 101, 118, 45, 49]),
      .long 1 none, .long 2 (some [109, 101])] [[45, 118]] := by
  refine .word _ _ _ _ _ (by decide) (.flag _ _ _ _ _ ⟨by decide, by decide, by decide, [63, 122, 102, 118, 97, 113], [101, 114, 120, 58, 121, 58, 107, 58, 115, 58, 112, 58, 111, 58, 99, 58, 116, 58, 119, 58, 105, 58, 117, 58, 104, 58], by decide, by decide, by decide⟩ ?_)
  refine .flag _ _ _ _ _ ⟨by decide, by decide, by decide, [63, 122, 102, 118, 97, 113, 103], [114, 120, 58, 121, 58, 107, 58, 115, 58, 112, 58, 111, 58, 99, 58, 116, 58, 119, 58, 105, 58, 117, 58, 104, 58], by decide, by decide, by decide⟩ ?_
  refine .word _ _ _ _ _ (by decide) (.here _ _ _ _ _ ⟨by decide, by decide, by decide, [63, 122, 102, 118, 97, 113, 103, 101, 114, 120, 58, 121, 58, 107, 58, 115, 58, 112, 58], [99, 58, 116, 58, 119, 58, 105, 58, 117, 58, 104, 58], by decide, by decide⟩ (by decide) ?_)
  refine .word _ _ _ _ _ (by decide) (.next _ _ _ _ _ ⟨by decide, by decide, by decide, [63, 122, 102, 118, 97, 113, 103, 101, 114, 120, 58, 121, 58, 107, 58], [112, 58, 111, 58, 99, 58, 116, 58, 119, 58, 105, 58, 117, 58, 104, 58], by decide, by decide⟩ ?_)
  refine .longEq [99, 111, 109, 109, 111, 110, 45, 110, 97, 109, 101] [100, 101, 118, 45, 49] 5 ⟨[99, 111, 109, 109, 111, 110, 45, 110, 97, 109, 101], .required⟩ _ _ _ (by decide) (by decide) (.inl ⟨⟨[99, 111, 109, 109, 111, 110, 45, 110, 97, 109, 101], .required⟩, rfl, rfl, ?_⟩) rfl (by decide) ?_
  · intro j d hj hd
    match j, hj with
    | 0, _ => cases hd; decide
    | 1, _ => cases hd; decide
    | 2, _ => cases hd; decide
    | 3, _ => cases hd; decide
    | 4, _ => cases hd; decide
  refine .longFlag [115, 114, 112] 1 ⟨[115, 114, 112], .no⟩ _ _ _ (by decide) (by decide) (.inl ⟨⟨[115, 114, 112], .no⟩, rfl, rfl, ?_⟩) rfl rfl ?_
  · intro j d hj hd
    match j, hj with
    | 0, _ => cases hd; decide
  refine .longNext [115, 114, 112, 45, 117] [109, 101] 2 ⟨[115, 114, 112, 45, 117, 115, 101, 114], .required⟩ _ _ _ (by decide) (by decide) (.inr ⟨⟨⟨[115, 114, 112, 45, 117, 115, 101, 114], .required⟩, rfl, by decide⟩, ?_⟩) rfl rfl (.dashes _)
  intro j d hd hp
  have hl : j < 16 := by
    rcases Nat.lt_or_ge j 16 with h | h
    · exact h
    · rw [List.getElem?_eq_none (by exact h)] at hd; cases hd
  match j, hl with
  | 0, _ => cases hd; exact absurd hp (by decide)
  | 1, _ => cases hd; exact absurd hp (by decide)
  | 2, _ => rfl
  | 3, _ => cases hd; exact absurd hp (by decide)
  | 4, _ => cases hd; exact absurd hp (by decide)
  | 5, _ => cases hd; exact absurd hp (by decide)
  | 6, _ => cases hd; exact absurd hp (by decide)
  | 7, _ => cases hd; exact absurd hp (by decide)
  | 8, _ => cases hd; exact absurd hp (by decide)
  | 9, _ => cases hd; exact absurd hp (by decide)
  | 10, _ => cases hd; exact absurd hp (by decide)
  | 11, _ => cases hd; exact absurd hp (by decide)
  | 12, _ => cases hd; exact absurd hp (by decide)
  | 13, _ => cases hd; exact absurd hp (by decide)
  | 14, _ => cases hd; exact absurd hp (by decide)
  | 15, _ => cases hd; exact absurd hp (by decide)

/-! ## No reading behind the command line, and an end -/

/-- What is left to read. -/
def left (argv : List (List Nat)) (s : St) : Nat := s.place.length + ((after argv s).map fun w => w.length + 1).sum

theorem sum_drop (argv : List (List Nat)) (k : Nat) :
    ((argv.drop (k + 1)).map fun w => w.length + 1).sum ≤ ((argv.drop k).map fun w => w.length + 1).sum := by
  rcases Nat.lt_or_ge k argv.length with h | h
  · rw [List.drop_eq_getElem_cons h]
    simp only [List.map_cons, List.sum_cons]
    omega
  · rw [List.drop_of_length_le h, List.drop_of_length_le (by omega)]
    omega

theorem letter_total (argv : List (List Nat)) (ostr : List Nat) (s : St) (hp : s.place ≠ []) :
    ∃ r s', letter argv ostr s = .ret r s' ∧ (r = -1 ∨ left argv s' < left argv s) ∧ r ≠ -2 := by
  cases hpl : s.place with
  | nil => exact absurd hpl hp
  | cons c rest =>
    have hs : left argv s = rest.length + 1 + ((argv.drop (s.optind + 1)).map fun w => w.length + 1).sum := by
      unfold left after
      rw [hpl]
      simp
    have hmove : ∀ a i, left argv ⟨if rest = [] then s.optind + 1 else s.optind, rest, a, i⟩ < left argv s := by
      intro a i
      rw [hs]
      unfold left after
      by_cases hr : rest = []
      · subst hr; simp
      · simp [hr]
    have hend : ∀ j a i, s.optind + 1 ≤ j → left argv ⟨j, [], a, i⟩ < left argv s := by
      intro j a i hj
      rw [hs]
      unfold left after
      simp only [if_true, List.length_nil, Nat.zero_add]
      obtain ⟨d, rfl⟩ : ∃ d, j = s.optind + 1 + d := ⟨j - (s.optind + 1), by omega⟩
      have : ((argv.drop (s.optind + 1 + d)).map fun w => w.length + 1).sum ≤ ((argv.drop (s.optind + 1)).map fun w => w.length + 1).sum := by
        clear hj
        induction d with
        | zero => exact Nat.le_refl _
        | succ d ih => exact Nat.le_trans (sum_drop argv (s.optind + 1 + d)) ih
      omega
    unfold letter
    rw [hpl]
    dsimp only
    split
    · split
      · exact ⟨_, _, rfl, .inl rfl, by decide⟩
      · exact ⟨_, _, rfl, .inr (hmove _ _), by decide⟩
    · exact ⟨_, _, rfl, .inr (hmove _ _), by omega⟩
    · split
      · exact ⟨_, _, rfl, .inr (hend _ _ _ (by omega)), by omega⟩
      · split
        · exact ⟨_, _, rfl, .inr (hend _ _ _ (by omega)), by decide⟩
        · rw [read, if_pos (by omega)]
          exact ⟨_, _, rfl, .inr (hend _ _ _ (by omega)), by omega⟩

theorem internal_total (argv : List (List Nat)) (ostr : List Nat) (s : St) :
    ∃ r s', internal argv ostr s = .ret r s' ∧ (r = -1 ∨ r = -2 ∨ left argv s' < left argv s) ∧
      (r = -2 → s' = s ∧ s.place = [] ∧ s.optind < argv.length) := by
  have key : ∀ t : St, t.place ≠ [] → left argv t ≤ left argv s →
      ∃ r s', letter argv ostr t = .ret r s' ∧ (r = -1 ∨ r = -2 ∨ left argv s' < left argv s) ∧
        (r = -2 → s' = s ∧ s.place = [] ∧ s.optind < argv.length) := by
    intro t ht hle
    obtain ⟨r, s', h1, h2, h3⟩ := letter_total argv ostr t ht
    exact ⟨r, s', h1, h2.imp id (fun h => .inr (by omega)), fun h => absurd h h3⟩
  unfold internal
  split
  · rename_i hp
    split
    · exact ⟨_, _, rfl, .inl rfl, fun h => by cases h⟩
    · rename_i hlt
      have hl : s.optind < argv.length := by omega
      rw [read, if_pos (by omega), List.getElem?_eq_getElem hl]
      dsimp only
      have hleft : left argv s = argv[s.optind].length + 1 + ((argv.drop (s.optind + 1)).map fun w => w.length + 1).sum := by
        unfold left after
        rw [hp, if_pos rfl, List.drop_eq_getElem_cons hl]
        simp only [List.map_cons, List.sum_cons, List.length_nil, Nat.zero_add]
      split
      · exact ⟨_, _, rfl, .inl rfl, fun h => by cases h⟩
      · rename_i hh
        cases hw : argv[s.optind] with
        | nil => rw [hw] at hh; simp at hh
        | cons c w =>
          rw [hw] at hleft
          simp only [List.tail_cons]
          cases w with
          | nil =>
            dsimp only
            refine key _ (by simp) ?_
            rw [hleft]
            unfold left after
            simp
          | cons d r =>
            dsimp only
            split
            · exact ⟨_, _, rfl, .inr (.inl rfl), fun _ => ⟨rfl, hp, hl⟩⟩
            · refine key _ (by simp) ?_
              rw [hleft]
              unfold left after
              simp
  · rename_i hp
    exact key s hp (Nat.le_refl _)

theorem getoptLong_total (argv : List (List Nat)) (ostr : List Nat) (table : List Entry) (s : St) :
    ∃ r s', getoptLong argv ostr table s = .ret r s' ∧ (r = -1 ∨ left argv s' < left argv s) := by
  obtain ⟨r, s', h1, h2, h3⟩ := internal_total argv ostr s
  unfold getoptLong
  rw [h1]
  dsimp only
  by_cases hr : r = -2
  · rw [if_neg (by simp [hr])]
    obtain ⟨rfl, hp, hl⟩ := h3 hr
    rw [read, if_pos (by omega), List.getElem?_eq_getElem hl]
    dsimp only
    have hdec : ∀ j a i, s'.optind + 1 ≤ j → left argv ⟨j, s'.place, a, i⟩ < left argv s' := by
      intro j a i hj
      unfold left after
      rw [hp]
      simp only [if_true, List.length_nil, Nat.zero_add]
      obtain ⟨d, rfl⟩ : ∃ d, j = s'.optind + 1 + d := ⟨j - (s'.optind + 1), by omega⟩
      have h4 : ((argv.drop (s'.optind + 1 + d)).map fun w => w.length + 1).sum ≤ ((argv.drop (s'.optind + 1)).map fun w => w.length + 1).sum := by
        clear hj
        induction d with
        | zero => exact Nat.le_refl _
        | succ d ih => exact Nat.le_trans (sum_drop argv (s'.optind + 1 + d)) ih
      rw [List.drop_eq_getElem_cons hl]
      simp only [List.map_cons, List.sum_cons]
      omega
    split
    · exact ⟨_, _, rfl, .inl rfl⟩
    · split
      · exact ⟨_, _, rfl, .inr (hdec _ _ _ (by omega))⟩
      · rename_i i hi
        have hlt := search_lt hi
        rw [List.getElem?_eq_getElem hlt]
        dsimp only
        split
        · exact ⟨_, _, rfl, .inr (hdec _ _ _ (by omega))⟩
        · split
          · rename_i hx
            split at hx
            · cases hx
            · rw [read, if_pos (by omega)] at hx
              cases hx
          · rename_i v n hx
            have hn : s'.optind + 1 ≤ n := by
              split at hx
              · cases hx; omega
              · rw [read, if_pos (by omega)] at hx
                cases hx
                omega
            split
            · exact ⟨_, _, rfl, .inr (hdec _ _ _ hn)⟩
            · exact ⟨_, _, rfl, .inr (hdec _ _ _ hn)⟩
  · rw [if_pos hr]
    exact ⟨r, s', rfl, h2.imp id (fun h => h.resolve_left hr)⟩

theorem loop_total (argv : List (List Nat)) (ostr : List Nat) (table : List Entry) : ∀ k s, left argv s < k →
    ∃ es rest, loop argv ostr table k s = .ok es rest := by
  intro k
  induction k with
  | zero => intro s h; omega
  | succ k ih =>
    intro s hk
    obtain ⟨r, s', h1, h2⟩ := getoptLong_total argv ostr table s
    unfold loop
    rw [h1]
    dsimp only
    split
    · exact ⟨_, _, rfl⟩
    · rename_i hr
      obtain ⟨es, rest, h3⟩ := ih s' (by have := h2.resolve_left hr; omega)
      split
      · exact ⟨_, _, rfl⟩
      · rw [h3]
        exact ⟨_, _, rfl⟩

/-- Whatever the command line is, nothing behind its end is read, and the loop comes to an end. -/
theorem C133_safe (argv : List (List Nat)) (ostr : List Nat) (table : List Entry) : ∃ es rest, parse argv ostr table = .ok es rest := by
  unfold parse
  apply loop_total
  unfold left after
  simp only [if_true, List.length_nil, Nat.zero_add]
  cases argv with
  | nil => simp
  | cons w argv => simp; omega

/-- Each command line of clear words is written in one of the usual ways, or has a mistake in it. -/
theorem C133_clear_partial (ostr : List Nat) (table : List Entry) (h45 : 45 ∉ ostr) (ht : ∀ e ∈ table, e.has ≠ .optional)
    (args : List (List Nat)) (h0 : ∀ w ∈ args, 0 ∉ w) (hc : ∀ w ∈ args, Clear table w) : ∃ es rest, Reads ostr table [] args es rest := by
  have gen : ∀ m place args, place.length + (args.map fun w : List Nat => w.length + 1).sum ≤ m → 0 ∉ place → 45 ∉ place →
      (∀ w ∈ args, 0 ∉ w) → (∀ w ∈ args, Clear table w) → ∃ es rest, Reads ostr table place args es rest := by
    intro m
    induction m with
    | zero =>
      intro place args hm _ _ _ _
      cases place with
      | cons c p => simp only [List.length_cons] at hm; omega
      | nil =>
        cases args with
        | nil => exact ⟨_, _, .none⟩
        | cons w args => simp only [List.map_cons, List.sum_cons] at hm; omega
    | succ m ih =>
      intro place args hm h0 h45p h0a hca
      cases place with
      | cons c cs =>
        simp only [List.mem_cons, not_or] at h0 h45p
        simp only [List.length_cons] at hm
        have hc0 : c ≠ 0 := fun h => h0.1 h.symm
        have hc45 : c ≠ 45 := fun h => h45p.1 h.symm
        by_cases hbad : c = 58 ∨ c = 63 ∨ c ∉ ostr
        · exact ⟨_, _, .unknown c cs args hbad hc45 hc0⟩
        · simp only [not_or, Decidable.not_not] at hbad
          obtain ⟨h58, h63, hin⟩ := hbad
          obtain ⟨a, b, e, hn⟩ := split_first ostr hin
          by_cases hb : b.head? = some 58
          · have hv : Valued ostr c := by
              cases b with
              | nil => cases hb
              | cons x b =>
                have hx : x = 58 := by simpa using hb
                exact ⟨h58, h63, hc0, a, b, by rw [e, hx], hn⟩
            cases cs with
            | cons d cs =>
              obtain ⟨es, rest, h⟩ := ih [] args (by simp only [List.length_cons, List.length_nil] at hm ⊢; omega) (by simp) (by simp) h0a hca
              exact ⟨_, _, .here c (d :: cs) args es rest hv (by simp) h⟩
            | nil =>
              cases args with
              | nil => exact ⟨_, _, .missing c hv⟩
              | cons v args =>
                simp only [List.map_cons, List.sum_cons] at hm
                obtain ⟨es, rest, h⟩ := ih [] args (by simp only [List.length_nil] at hm ⊢; omega) (by simp) (by simp)
                  (fun w hw => h0a w (by simp [hw])) (fun w hw => hca w (by simp [hw]))
                exact ⟨_, _, .next c v args es rest hv h⟩
          · have hf : Flag ostr c := ⟨h58, h63, hc0, a, b, e, hn, hb⟩
            obtain ⟨es, rest, h⟩ := ih cs args (by omega) h0.2 h45p.2 h0a hca
            exact ⟨_, _, .flag c cs args es rest hf h⟩
      | nil =>
        cases args with
        | nil => exact ⟨_, _, .none⟩
        | cons w args =>
          have h0w := h0a w (by simp)
          have hcw := hca w (by simp)
          have h0r : ∀ w ∈ args, 0 ∉ w := fun w hw => h0a w (by simp [hw])
          have hcr : ∀ w ∈ args, Clear table w := fun w hw => hca w (by simp [hw])
          simp only [List.map_cons, List.sum_cons, List.length_nil] at hm
          by_cases h45w : w.head? = some 45
          · cases w with
            | nil => cases h45w
            | cons x w =>
              have hx : x = 45 := by simpa using h45w
              subst hx
              cases w with
              | nil => exact ⟨_, _, .dash args h45⟩
              | cons c w =>
                simp only [List.length_cons] at hm
                by_cases hd : c = 45
                · subst hd
                  cases hn : w with
                  | nil => exact ⟨_, _, .dashes args⟩
                  | cons y ys =>
                    rw [← hn]
                    have hne : w ≠ [] := by rw [hn]; simp
                    obtain ⟨hpre, hcase⟩ := hcw.1 w rfl hne
                    obtain ⟨es, rest, h⟩ := ih [] args (by simp only [List.length_nil]; omega) (by simp) (by simp) h0r hcr
                    rcases hcase with ⟨i, hnamed, heq⟩ | hunk
                    · have hie : ∃ e, table[i]? = some e := by
                        rcases hnamed with ⟨e, h1, _⟩ | ⟨⟨e, h1, _⟩, _⟩ <;> exact ⟨e, h1⟩
                      obtain ⟨e, he⟩ := hie
                      by_cases h61 : 61 ∈ w
                      · obtain ⟨e', he', hno⟩ := heq h61
                        obtain ⟨a, b, hw, ha⟩ := split_first w h61
                        rw [hw, takeWhile_ne a b ha] at hpre hnamed
                        rw [hw]
                        exact ⟨_, _, .longEq a b i e' args es rest hpre ha hnamed he' hno h⟩
                      · rw [takeWhile_all w h61] at hnamed
                        cases hhas : e.has with
                        | no => exact ⟨_, _, .longFlag w i e args es rest hne h61 hnamed he hhas h⟩
                        | optional => exact absurd hhas (ht e (List.mem_of_getElem? he))
                        | required =>
                          cases args with
                          | nil => exact ⟨_, _, .longMissing w i e hne h61 hnamed he hhas⟩
                          | cons v args =>
                            simp only [List.map_cons, List.sum_cons] at hm
                            obtain ⟨es, rest, h⟩ := ih [] args (by simp only [List.length_nil]; omega) (by simp) (by simp)
                              (fun w hw => h0r w (by simp [hw])) (fun w hw => hcr w (by simp [hw]))
                            exact ⟨_, _, .longNext w v i e args es rest hne h61 hnamed he hhas h⟩
                    · exact ⟨_, _, .longUnknown w args hne hunk⟩
                · have hcs := hcw.2 c w rfl hd
                  obtain ⟨es, rest, h⟩ := ih (c :: w) args (by simp only [List.length_cons]; omega)
                    (fun hz => h0w (by simp only [List.mem_cons] at hz ⊢; exact .inr hz))
                    (by simp only [List.mem_cons, not_or]; exact ⟨fun h => hd h.symm, hcs⟩) h0r hcr
                  exact ⟨_, _, .word c w args es rest hd h⟩
          · exact ⟨_, _, .plain w args h45w⟩
  exact gen _ [] args (Nat.le_refl _) (by simp) (by simp) h0 hc

example : 45 ∉ clientLetters ∧ ∀ e ∈ clientTable, e.has ≠ .optional := by decide +kernel

/-! ## What is understood although it is not clear -/

/-- That an abbreviation of several names is refused is false: the first is taken.  `--p` is `--pem-output`, and
`--proxy-p` is `--proxy-port`. -/
theorem C133_abbreviation_false : parse [[99], [45, 45, 112], [45, 45, 112, 114, 111, 120, 121, 45, 112], [56, 48]] clientLetters clientTable =
    .ok [.long 6 none, .long 11 (some [56, 48])] [] := by decide +kernel

/-- That a long option needs a name is false: an equals sign alone is the first of the table, here that for the
trust anchor. -/
theorem C133_no_name_false : parse [[99], [45, 45, 61, 99, 97, 46, 112, 101, 109]] clientLetters clientTable = .ok [.long 0 (some [99, 97, 46, 112, 101, 109])] [] := by
  decide +kernel

/-- That an argument for an option without one is refused is false: it is ignored. -/
theorem C133_argument_false : parse [[99], [45, 45, 112, 101, 109, 45, 111, 117, 116, 112, 117, 116, 61, 110, 111]] clientLetters clientTable = .ok [.long 6 none] [] := by decide +kernel

/-- That all options before the first other word are seen is false: a minus sign among letters ends them without
a word. -/
theorem C133_minus_false : parse [[99], [45, 103, 45], [45, 101]] clientLetters clientTable = .ok [.letter 103 none] [[45, 103, 45], [45, 101]] := by
  decide +kernel

/-- That an optional argument is only taken from the same word is false for tables with such an option: the next
word is taken, even if it is an option. -/
theorem C133_optional_false : parse [[99], [45, 45, 120], [45, 101]] clientLetters [⟨[120], .optional⟩] = .ok [.long 0 (some [45, 101])] [] := by
  decide +kernel

/-- It may be missing at the end of the line, where a required one may not. -/
theorem C133_optional : parse [[99], [45, 45, 120]] clientLetters [⟨[120], .optional⟩] = .ok [.long 0 none] [] ∧
    parse [[99], [45, 45, 120]] clientLetters [⟨[120], .required⟩] = .ok [.bad] [] := by
  decide +kernel

/-- That `--keypass_stdin` has no argument, as the usage says, is false: the next option is lost. -/
theorem C133_keypass_false : parse [[99], [45, 45, 107, 101, 121, 112, 97, 115, 115, 95, 115, 116, 100, 105, 110], [45, 101], [45, 111], [111, 117, 116]] clientLetters clientTable =
    .ok [.long 8 (some [45, 101]), .letter 111 (some [111, 117, 116])] [] := by decide +kernel

/-! ## The sample client from its command line -/

/-- The threads of the sample client find what the words of the command line say. -/
theorem C133_client (e : SampleArgs.Env) (argv : List (List Nat)) (es : List Event) (rest : List (List Nat))
    (h : Reads clientLetters clientTable [] (argv.drop 1) es rest) :
    client e argv = some (SampleArgs.main e (es.map toArg)) ∧
    ∀ o ca th n acts, SampleArgs.Strings (es.map toArg) → client e argv = some (.run o ca th n acts) →
      SampleArgs.Meant (es.map toArg) o := by
  have hp := C133_reads argv clientLetters clientTable es rest h
  have hc : client e argv = some (SampleArgs.main e (es.map toArg)) := by
    unfold client
    rw [hp]
  refine ⟨hc, ?_⟩
  intro o ca th n acts hs hr
  rw [hc] at hr
  exact SampleArgs.C131_values e _ o ca th n acts hs (Option.some.inj hr)

example : ∃ o acts, client SampleArgs.good exLine = some (.run o true 1 1 acts) := by
  rw [(C133_client SampleArgs.good exLine _ _ exLine_reads).1]
  refine ⟨{ cn := [100, 101, 118, 45, 49], server := [101, 115, 116, 46, 101, 120, 97, 109, 112, 108, 101], outDir := [111, 117, 116], getcert := true, enroll := true, srp := true, srpUid := [109, 101] },
    [.readCa [67], .writeKey [111, 117, 116, 47, 107, 101, 121, 45, 120, 45, 120, 46, 112, 101, 109], .readKey [111, 117, 116, 47, 107, 101, 121, 45, 120, 45, 120, 46, 112, 101, 109]], ?_⟩
  decide +kernel

end Verif.GetOpt
