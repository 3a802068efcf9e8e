import Verif.SubjectLemmas

/-!
# C132: which texts are names, and which names they are
-/
namespace Verif.Subject

/-- The elements that are added one by one are those of `group`. -/
theorem group_ne {α : Type} : ∀ (x : Bool × α) (l : List (Bool × α)), group (x :: l) ≠ []
  | (b, a), l => by
    unfold group
    split <;> simp

theorem group_false {α : Type} (b : Bool) (a x : α) (l : List (Bool × α)) :
    group ((b, a) :: (false, x) :: l) = [a] :: group ((false, x) :: l) := by
  conv => lhs; unfold group

theorem group_true {α : Type} (b : Bool) (a x : α) (l : List (Bool × α)) (r : List α) (rs : List (List α))
    (h : group ((true, x) :: l) = r :: rs) : group ((b, a) :: (true, x) :: l) = (a :: r) :: rs := by
  conv => lhs; unfold group
  rw [h]

theorem foldl_add : ∀ (l : List (Bool × Nat × List Nat)) (n : Name),
    l.foldl (fun n e => addEntry n e.2.1 e.2.2 e.1) n =
      match n.getLast?, l with
      | some r, (true, _) :: _ => n.dropLast ++ ((r ++ (group l).headD []) :: (group l).tail)
      | _, _ => n ++ group l := by
  intro l
  induction l with
  | nil => intro n; cases n.getLast? <;> simp [group]
  | cons e l ih =>
    obtain ⟨b, k, v⟩ := e
    intro n
    rw [List.foldl_cons, ih]
    dsimp only
    have hgl : ∀ (m : Name) (r : List (Nat × List Nat)), (m ++ [r]).getLast? = some r := by intro m r; simp
    have hlast : (addEntry n k v b).getLast? ≠ none := by
      unfold addEntry
      split <;> simp
    have hdl : ∀ (m : Name) (r : List (Nat × List Nat)), (m ++ [r]).dropLast = m := by intro m r; simp
    cases l with
    | nil =>
      cases hn : n.getLast? with
      | none =>
        have : n = [] := by simpa using hn
        subst this
        cases b <;> simp [addEntry, group]
      | some r =>
        cases b <;> simp [addEntry, group, hn]
    | cons d l =>
      obtain ⟨c, x⟩ := d
      have hne := group_ne (c, x) l
      cases hg : group ((c, x) :: l) with
      | nil => exact absurd hg hne
      | cons r rs =>
        cases hn : n.getLast? with
        | none =>
          have : n = [] := by simpa using hn
          subst this
          cases c with
          | false => cases b <;> simp [addEntry, group_false, hg]
          | true => cases b <;> simp [addEntry, group_true _ _ _ _ _ _ hg]
        | some q =>
          have hnq : n.dropLast ++ [q] = n := by
            have hne' : n ≠ [] := by intro h; subst h; cases hn
            have : n.getLast hne' = q := by
              rw [List.getLast?_eq_some_getLast hne'] at hn; exact Option.some.inj hn
            rw [← this, List.dropLast_concat_getLast]
          cases c with
          | false => cases b <;> simp [addEntry, group_false, hg, hn]
          | true => cases b <;> simp [addEntry, group_true _ _ _ _ _ _ hg, hn]

theorem foldl_add_nil (l : List (Bool × Nat × List Nat)) : l.foldl (fun n e => addEntry n e.2.1 e.2.2 e.1) [] = group l := by
  rw [foldl_add]
  simp

theorem build_holds (nid : List Nat → Option Nat) (add : Nat → List Nat → Bool) (buf : List Nat) : ∀ (l : List Elem) ts vs ms n,
    ts.map (strAt buf) = l.map (fun e => some e.type) → vs.map (strAt buf) = l.map (fun e => some e.value) →
    ms.take l.length = l.map Elem.join →
    build nid add buf ts vs ms n =
      if (l.filterMap (keep nid)).all (fun e => add e.2.1 e.2.2) then
        .ok ((l.filterMap (keep nid)).foldl (fun n e => addEntry n e.2.1 e.2.2 e.1) n)
      else .fail := by
  intro l
  induction l with
  | nil =>
    intro ts vs ms n h1 _ _
    have : ts = [] := by simpa using h1
    subst this
    rfl
  | cons e l ih =>
    intro ts vs ms n h1 h2 h3
    cases ts with
    | nil => cases h1
    | cons t ts =>
      cases vs with
      | nil => cases h2
      | cons v vs =>
        cases ms with
        | nil => cases h3
        | cons m ms =>
          simp only [List.map_cons, List.cons.injEq, List.length_cons, List.take_succ_cons] at h1 h2 h3
          unfold build
          rw [h1.1, h2.1]
          dsimp only
          rw [List.filterMap_cons]
          cases hk : nid e.type with
          | none =>
            have e0 : keep nid e = none := by simp [keep, hk]
            rw [e0]
            exact ih ts vs ms n h1.2 h2.2 h3.2
          | some k =>
            dsimp only
            by_cases hv : e.value = []
            · have e0 : keep nid e = none := by simp [keep, hk, hv]
              rw [e0, if_pos hv]
              exact ih ts vs ms n h1.2 h2.2 h3.2
            · have e0 : keep nid e = some (e.join, k, e.value) := by simp [keep, hk, hv]
              rw [e0, if_neg hv]
              dsimp only
              rw [List.all_cons, List.foldl_cons]
              by_cases ha : add k e.value = true
              · rw [if_pos ha, ih ts vs ms _ h1.2 h2.2 h3.2, h3.1]
                simp only [ha, Bool.true_and]
              · rw [if_neg ha]
                simp only [ha, Bool.false_and, Bool.false_eq_true, if_false]

theorem room_start {c : Nat} {sp : List Nat} : Room (c :: sp).length sp ⟨[], [], [], [false]⟩ :=
  ⟨.inl (by simp), .inl (by simp), rfl, .inl rfl⟩

/-- The text of a name, however it is written, gives that name: the elements with a type that is known
and a value, in order, those joined with `+` in one relative name with the element kept before them. -/
theorem C132_reads (multi : Bool) (nid : List Nat → Option Nat) (add : Nat → List Nat → Bool) (s : List Nat) (l : List Elem)
    (h0 : 0 ∉ s) (hw : Written multi s l) :
    parseName {} multi nid add s =
      .ret (if (l.filterMap (keep nid)).all (fun e => add e.2.1 e.2.2) then some (group (l.filterMap (keep nid))) else none)
        [.values, .types, .buf] := by
  obtain ⟨b, rfl, hb⟩ := hw
  unfold parseName
  simp only [Bool.not_true, Bool.or_false, Bool.false_eq_true, if_false, ne_eq, not_true_eq_false]
  have ht := loop_total multi (47 :: b).length (47 :: b).length b ⟨[], [], [], [false]⟩ (by simp) room_start
  have hc := loop_complete multi ((47 :: b).length + 1) (((47 :: b).length + 1) / 2 + 1) hb (47 :: b).length ⟨[], [], [], [false]⟩ []
    (by simp) (fun h => h0 (by simp [h])) ⟨rfl, rfl, rfl⟩ (.inl rfl)
  rcases hc with hc | ⟨s', hc, hh⟩
  · rcases ht with ⟨s', ht⟩ | ht <;> rw [ht] at hc <;> cases hc
  · rw [hc]
    dsimp only
    rw [build_holds nid add s'.buf l s'.types s'.values s'.mval [] (by simpa using hh.types) (by simpa using hh.values)
      (by simpa using hh.mval)]
    by_cases hall : (l.filterMap (keep nid)).all (fun e => add e.2.1 e.2.2) = true
    · rw [if_pos hall, if_pos hall, foldl_add_nil]
    · rw [if_neg hall, if_neg hall]
      rfl

/-- The text `/CN=a\/b/O=c+OU=d`. -/
def exText : List Nat := [47, 67, 78, 61, 97, 92, 47, 98, 47, 79, 61, 99, 43, 79, 85, 61, 100]

/-- Its elements. -/
def exElems : List Elem := [⟨false, [67, 78], [97, 47, 98]⟩, ⟨false, [79], [99]⟩, ⟨true, [79, 85], [100]⟩]

/-- The objects with these short names. -/
def exNid (t : List Nat) : Option Nat :=
  if t = [67, 78] then some 13 else if t = [79] then some 17 else if t = [79, 85] then some 18 else none

theorem exText_text : text true exElems = exText := by decide +kernel

theorem exText_name : parseName {} true exNid (fun _ _ => true) exText =
    .ret (some [[(13, [97, 47, 98])], [(17, [99]), (18, [100])]]) [.values, .types, .buf] := by decide +kernel

/-- A text that is not a way to write a name gives none. -/
theorem C132_refuses (m : Mem) (multi : Bool) (nid : List Nat → Option Nat) (add : Nat → List Nat → Bool) (s : List Nat) (h0 : 0 ∉ s)
    (hm : m.mval = true) (hw : ∀ l, ¬ Written multi s l) : ∃ f, parseName m multi nid add s = .ret none f := by
  unfold parseName
  split
  · exact ⟨_, rfl⟩
  · split
    · exact ⟨_, rfl⟩
    · rename_i c sp
      split
      · exact ⟨_, rfl⟩
      · rename_i hc
        have hc' : c = 47 := by simpa using hc
        subst hc'
        rw [hm]
        simp only [Bool.not_true, Bool.false_eq_true, if_false]
        have ht := loop_total multi (47 :: sp).length (47 :: sp).length sp ⟨[], [], [], [false]⟩ (by simp) room_start
        rcases ht with ⟨s', ht⟩ | ht
        · obtain ⟨l, hl⟩ := loop_sound multi _ _ _ _ _ _ false ht
          exact absurd ⟨sp, rfl, hl⟩ (hw l)
        · rw [ht]
          exact ⟨_, rfl⟩

/-- A text stands for one list of elements at most. -/
theorem C132_unique (multi : Bool) (s : List Nat) (l l' : List Elem) (h0 : 0 ∉ s) (h : Written multi s l) (h' : Written multi s l') :
    l = l' := by
  obtain ⟨b, rfl, hb⟩ := h
  obtain ⟨b', e, hb'⟩ := h'
  obtain rfl := (List.cons.inj e).2
  have ht := loop_total multi (47 :: b).length (47 :: b).length b ⟨[], [], [], [false]⟩ (by simp) room_start
  have key : ∀ l, Body multi false b l → ∃ s', loop multi ((47 :: b).length + 1) (((47 :: b).length + 1) / 2 + 1) (47 :: b).length b
      ⟨[], [], [], [false]⟩ = .ok s' ∧ Holds s' l := by
    intro l hb
    rcases loop_complete multi ((47 :: b).length + 1) (((47 :: b).length + 1) / 2 + 1) hb (47 :: b).length ⟨[], [], [], [false]⟩ []
      (by simp) (fun h => h0 (by simp [h])) ⟨rfl, rfl, rfl⟩ (.inl rfl) with hc | hc
    · rcases ht with ⟨s', ht⟩ | ht <;> rw [ht] at hc <;> cases hc
    · simpa using hc
  obtain ⟨s1, e1, h1⟩ := key l hb
  obtain ⟨s2, e2, h2⟩ := key l' hb'
  rw [e1] at e2
  cases e2
  have a1 : l.map (fun e => some e.type) = l'.map (fun e => some e.type) := h1.types.symm.trans h2.types
  have a2 : l.map (fun e => some e.value) = l'.map (fun e => some e.value) := h1.values.symm.trans h2.values
  have hl : l.length = l'.length := by simpa using congrArg List.length a1
  have a3 : l.map Elem.join = l'.map Elem.join := by rw [← h1.mval, hl, h2.mval]
  clear h1 h2 e1 key ht hb hb' hl
  induction l generalizing l' with
  | nil => cases l' with
    | nil => rfl
    | cons _ _ => cases a1
  | cons e l ih =>
    cases l' with
    | nil => cases a1
    | cons e' l' =>
      simp only [List.map_cons, List.cons.injEq, Option.some.injEq] at a1 a2 a3
      obtain ⟨j, t, v⟩ := e
      obtain ⟨j', t', v'⟩ := e'
      obtain ⟨rfl, a1⟩ := a1
      obtain ⟨rfl, a2⟩ := a2
      obtain ⟨rfl, a3⟩ := a3
      rw [ih l' a1 a2 a3]

theorem escape_esc (stop : Nat → Bool) : ∀ s, Esc stop (escape stop s) s
  | [] => .nil
  | c :: s => by
    have ih := escape_esc stop s
    have e : escape stop (c :: s) = (if c = 92 || stop c then [92, c] else [c]) ++ escape stop s := by simp [escape]
    rw [e]
    split
    · exact .esc c _ _ ih
    · rename_i h
      simp only [Bool.or_eq_true, decide_eq_true_eq, not_or, Bool.not_eq_true] at h
      exact .plain c _ _ h.1 h.2 ih

theorem escape_nil {stop : Nat → Bool} {s : List Nat} (h : escape stop s = []) : s = [] := by
  cases s with
  | nil => rfl
  | cons c s =>
    have e : escape stop (c :: s) = (if c = 92 || stop c then [92, c] else [c]) ++ escape stop s := by simp [escape]
    rw [e] at h
    split at h <;> cases h

theorem body_written (multi : Bool) : ∀ l, (∀ e ∈ l, e.join = true → multi = true) →
    Body multi (match l with | [] => false | e :: _ => e.join) (body multi l) l := by
  intro l
  induction l with
  | nil => intro _; exact .done _
  | cons e l ih =>
    intro hm
    cases l with
    | nil =>
      unfold body
      dsimp only
      split
      · exact .slash e.join _ e.type _ e.value [] [] (escape_esc _ _) (escape_esc _ _) (.done _)
      · rename_i hv
        rw [List.append_nil]
        exact .last e.join _ e.type _ e.value (escape_esc _ _) (escape_esc _ _) (fun h => hv (escape_nil h))
    | cons d l =>
      have ih' := ih (fun e he => hm e (by simp [he]))
      unfold body
      dsimp only at ih' ⊢
      cases hd : d.join with
      | false =>
        rw [hd] at ih'
        exact .slash e.join _ e.type _ e.value _ _ (escape_esc _ _) (escape_esc _ _) ih'
      | true =>
        rw [hd] at ih'
        exact .plus e.join _ e.type _ e.value _ _ (hm d (by simp) hd) (escape_esc _ _) (escape_esc _ _) ih'

/-- Every list of elements can be written, whatever bytes are in the types and values. -/
theorem C132_written (multi : Bool) (l : List Elem) (hm : ∀ e ∈ l, e.join = true → multi = true) (hf : ∀ e, l.head? = some e → e.join = false) :
    Written multi (text multi l) l := by
  refine ⟨_, rfl, ?_⟩
  have := body_written multi l hm
  cases l with
  | nil => exact this
  | cons e l =>
    have hj := hf e rfl
    dsimp only at this
    rw [hj] at this
    exact this

theorem escape_zero {stop : Nat → Bool} {s : List Nat} (h : 0 ∉ s) : 0 ∉ escape stop s := by
  unfold escape
  intro hm
  obtain ⟨c, hc, hz⟩ := List.mem_flatMap.1 hm
  have : c ≠ 0 := fun e => h (e ▸ hc)
  split at hz <;> simp at hz <;> omega

theorem body_zero (multi : Bool) : ∀ l, (∀ e ∈ l, 0 ∉ e.type ∧ 0 ∉ e.value) → 0 ∉ body multi l := by
  intro l
  induction l with
  | nil => intro _; simp [body]
  | cons e l ih =>
    intro h
    have he := h e (by simp)
    have ih' := ih (fun e he => h e (by simp [he]))
    unfold body
    simp only [List.mem_append, List.mem_cons, not_or]
    refine ⟨escape_zero he.1, by decide, escape_zero he.2, ?_⟩
    cases l with
    | nil => dsimp only; split <;> simp
    | cons d l =>
      simp only [List.mem_cons, not_or]
      refine ⟨?_, ih'⟩
      split <;> decide

/-- Writing a name and reading it gives the name back. -/
theorem C132_round_trip (multi : Bool) (nid : List Nat → Option Nat) (add : Nat → List Nat → Bool) (l : List Elem)
    (hm : ∀ e ∈ l, e.join = true → multi = true) (hf : ∀ e, l.head? = some e → e.join = false)
    (h0 : ∀ e ∈ l, 0 ∉ e.type ∧ 0 ∉ e.value) (hk : ∀ e ∈ l, ∃ k, nid e.type = some k ∧ e.value ≠ [] ∧ add k e.value = true) :
    parseName {} multi nid add (text multi l) =
      .ret (some (group (l.map fun e => (e.join, (nid e.type).getD 0, e.value)))) [.values, .types, .buf] := by
  have hz : 0 ∉ text multi l := by
    unfold text
    simp only [List.mem_cons, not_or]
    exact ⟨by decide, body_zero multi l h0⟩
  rw [C132_reads multi nid add _ l hz (C132_written multi l hm hf)]
  have e : l.filterMap (keep nid) = l.map fun e => (e.join, (nid e.type).getD 0, e.value) := by
    clear hz hf h0 hm
    induction l with
    | nil => rfl
    | cons e l ih =>
      obtain ⟨k, h1, h2, _⟩ := hk e (by simp)
      rw [List.filterMap_cons, ih (fun e he => hk e (by simp [he]))]
      simp [keep, h1, h2]
  rw [e]
  have ha : (l.map fun e => (e.join, (nid e.type).getD 0, e.value)).all (fun e => add e.2.1 e.2.2) = true := by
    rw [List.all_eq_true]
    intro x hx
    obtain ⟨y, hy, rfl⟩ := List.mem_map.1 hx
    obtain ⟨k, h1, _, h3⟩ := hk y hy
    simpa [h1] using h3
  rw [if_pos ha]

example : (∀ e ∈ exElems, e.join = true → true = true) ∧ (∀ e ∈ exElems, 0 ∉ e.type ∧ 0 ∉ e.value) ∧
    (∀ e ∈ exElems, ∃ k, exNid e.type = some k ∧ e.value ≠ [] ∧ (fun _ _ => true : Nat → List Nat → Bool) k e.value = true) := by
  refine ⟨fun _ _ _ => rfl, by decide +kernel, ?_⟩
  intro e he
  simp only [exElems, List.mem_cons, List.not_mem_nil, or_false] at he
  rcases he with rfl | rfl | rfl
  · exact ⟨13, by decide, by decide, rfl⟩
  · exact ⟨17, by decide, by decide, rfl⟩
  · exact ⟨18, by decide, by decide, rfl⟩

theorem keep_join {nid : List Nat → Option Nat} {e : Elem} {x : Bool × Nat × List Nat} (h : keep nid e = some x) : x.1 = e.join := by
  unfold keep at h
  split at h
  · split at h
    · cases h
    · cases h; rfl
  · cases h

theorem kept_head (nid : List Nat → Option Nat) : ∀ (l : List Elem), Whole nid l → (∀ d, l.head? = some d → d.join = false) →
    ∀ x, (l.filterMap (keep nid)).head? = some x → x.1 = false := by
  intro l
  induction l with
  | nil => intro _ _ x h; cases h
  | cons e l ih =>
    intro hw hj x hx
    rw [List.filterMap_cons] at hx
    cases hk : keep nid e with
    | some y =>
      rw [hk] at hx
      simp only [List.head?_cons, Option.some.injEq] at hx
      subst hx
      rw [keep_join hk]
      exact hj e rfl
    | none =>
      rw [hk] at hx
      cases l with
      | nil => cases hx
      | cons d l => exact ih hw.2 (fun c hc => by cases hc; exact hw.1 hk) x hx

theorem group_head_false {α : Type} (b : Bool) (a : α) (l : List (Bool × α)) (h : ∀ x, l.head? = some x → x.1 = false) :
    group ((b, a) :: l) = [a] :: group l := by
  cases l with
  | nil => rfl
  | cons x l =>
    obtain ⟨c, x⟩ := x
    have : c = false := h (c, x) rfl
    subst this
    exact group_false b a x l

theorem group_whole (nid : List Nat → Option Nat) : ∀ l, Whole nid l → group (l.filterMap (keep nid)) = asWritten nid l := by
  intro l
  induction l with
  | nil => intro _; rfl
  | cons e l ih =>
    intro hw
    have hwl : Whole nid l := by
      cases l with
      | nil => trivial
      | cons d l => exact hw.2
    have ihl := ih hwl
    unfold asWritten at ihl ⊢
    by_cases hd : ∀ d, l.head? = some d → d.join = false
    · have hg : group ((e :: l).map fun e => (e.join, e)) = [e] :: group (l.map fun e => (e.join, e)) := by
        rw [List.map_cons]
        refine group_head_false _ _ _ ?_
        intro x hx
        cases l with
        | nil => cases hx
        | cons d l => cases hx; exact hd d rfl
      rw [hg, List.filterMap_cons, List.map_cons, List.filter_cons]
      cases hk : keep nid e with
      | none => simp [hk, ihl]
      | some y =>
        obtain ⟨b, y⟩ := y
        simp only [hk, List.filterMap_cons, Option.map_some, List.filterMap_nil]
        rw [group_head_false b y _ (kept_head nid l hwl hd), ihl]
        simp
    · cases l with
      | nil => exact absurd (fun d h => by cases h) hd
      | cons d l =>
        have hj : d.join = true := by
          cases hj : d.join with
          | true => rfl
          | false => exact absurd (fun c hc => by cases hc; exact hj) hd
        have hke : ∃ y, keep nid e = some y := by
          cases hk : keep nid e with
          | none => rw [hw.1 hk] at hj; cases hj
          | some y => exact ⟨y, rfl⟩
        obtain ⟨⟨b, y⟩, hk⟩ := hke
        have hgne : group ((d :: l).map fun e => (e.join, e)) ≠ [] := group_ne _ _
        cases hg : group ((d :: l).map fun e => (e.join, e)) with
        | nil => exact absurd hg hgne
        | cons r rs =>
          have hg2 : group ((e :: d :: l).map fun e => (e.join, e)) = (e :: r) :: rs := by
            rw [List.map_cons, List.map_cons]
            rw [List.map_cons] at hg
            rw [hj] at hg ⊢
            exact group_true _ _ _ _ _ _ hg
          rw [hg2, List.map_cons, List.filter_cons, List.filterMap_cons, hk]
          rw [hg, List.map_cons, List.filter_cons] at ihl
          simp only [List.filterMap_cons, hk, Option.map_some]
          cases hkd : keep nid d with
          | some z =>
            obtain ⟨c, z⟩ := z
            have hc : c = true := by rw [← hj]; exact keep_join hkd
            subst hc
            have hrd : ∃ r', r = d :: r' := by
              unfold group at hg
              rw [List.map_cons] at hg
              dsimp only at hg
              split at hg
              · cases hg; exact ⟨_, rfl⟩
              · cases hg; exact ⟨_, rfl⟩
            obtain ⟨r', rfl⟩ := hrd
            rw [List.filterMap_cons, hkd] at ihl
            simp only [List.filterMap_cons, hkd, Option.map_some, ne_eq, reduceCtorEq, not_false_eq_true, decide_true, if_true] at ihl ⊢
            exact group_true _ _ _ _ _ _ ihl
          | none =>
            have hd2 : ∀ c, l.head? = some c → c.join = false := by
              intro c hc
              cases l with
              | nil => cases hc
              | cons c' l => cases hc; exact hw.2.1 hkd
            have hrd : group ((d :: l).map fun e => (e.join, e)) = [d] :: group (l.map fun e => (e.join, e)) := by
              rw [List.map_cons]
              refine group_head_false _ _ _ ?_
              intro x hx
              cases l with
              | nil => cases hx
              | cons c l => cases hx; exact hd2 c rfl
            rw [hg] at hrd
            cases hrd
            rw [List.filterMap_cons, hkd] at ihl
            simp only [List.filterMap_cons, hkd, Option.map_none, List.filterMap_nil, ne_eq, not_true_eq_false, decide_false,
              Bool.false_eq_true, if_false, reduceCtorEq, not_false_eq_true, decide_true, if_true] at ihl ⊢
            have hwl2 : Whole nid l := by
              cases l with
              | nil => trivial
              | cons d l => exact hwl.2
            rw [group_head_false b y _ (kept_head nid l hwl2 hd2), ihl]

/-- The elements end up in the relative names they were written in, if none belongs to one that is left
out. -/
theorem C132_join_partial (multi : Bool) (nid : List Nat → Option Nat) (add : Nat → List Nat → Bool) (s : List Nat) (l : List Elem)
    (h0 : 0 ∉ s) (hw : Written multi s l) (hl : Whole nid l) (n : Name) (f : List Blk)
    (h : parseName {} multi nid add s = .ret (some n) f) : n = asWritten nid l := by
  rw [C132_reads multi nid add s l h0 hw, Out.ret.injEq] at h
  have h1 := h.1
  split at h1
  · rw [← group_whole nid l hl]
    exact (Option.some.inj h1).symm
  · cases h1

example : Whole exNid exElems ∧ asWritten exNid exElems = [[(13, [97, 47, 98])], [(17, [99]), (18, [100])]] ∧
    asWritten exNid [⟨false, [67, 78], [97]⟩, ⟨false, [88], [98]⟩, ⟨true, [79, 85], [99]⟩] = [[(13, [97])], [(18, [99])]] := by
  refine ⟨⟨fun h => ?_, fun h => ?_, trivial⟩, by decide +kernel, by decide +kernel⟩
  · exact absurd h (by decide +kernel)
  · exact absurd h (by decide +kernel)

/-- That elements end up in the relative names they were written in is false when one is left out: here
`OU`, written with an unknown type, gets into the relative name of `CN`. -/
theorem C132_join_false : parseName {} true exNid (fun _ _ => true) [47, 67, 78, 61, 97, 47, 88, 61, 98, 43, 79, 85, 61, 99] =
      .ret (some [[(13, [97]), (18, [99])]]) [.values, .types, .buf] ∧
    Written true [47, 67, 78, 61, 97, 47, 88, 61, 98, 43, 79, 85, 61, 99] [⟨false, [67, 78], [97]⟩, ⟨false, [88], [98]⟩, ⟨true, [79, 85], [99]⟩] := by
  refine ⟨by decide +kernel, ?_⟩
  have e : [47, 67, 78, 61, 97, 47, 88, 61, 98, 43, 79, 85, 61, 99] = text true [⟨false, [67, 78], [97]⟩, ⟨false, [88], [98]⟩, ⟨true, [79, 85], [99]⟩] := by decide +kernel
  rw [e]
  exact C132_written true _ (fun _ _ _ => rfl) (fun e he => by cases he; rfl)

/-- That an element without a value is left out is false for the last one, unless a slash follows: the
whole name is refused. -/
theorem C132_no_value_false :
    parseName {} false exNid (fun _ _ => true) [47, 79, 61, 99, 47, 67, 78, 61] = .ret none [.values, .types, .buf] ∧
    parseName {} false exNid (fun _ _ => true) [47, 67, 78, 61, 47, 79, 61, 99] = .ret (some [[(17, [99])]]) [.values, .types, .buf] ∧
    parseName {} false exNid (fun _ _ => true) [47, 79, 61, 99, 47, 67, 78, 61, 47] = .ret (some [[(17, [99])]]) [.values, .types, .buf] := by decide +kernel

/-- Nothing is written behind a block or read without having been written, and the loops come to an end,
whatever the text is. -/
theorem C132_safe_partial (m : Mem) (multi : Bool) (nid : List Nat → Option Nat) (add : Nat → List Nat → Bool) (s : List Nat) (h0 : 0 ∉ s)
    (hm : m.mval = true) : ∃ n f, parseName m multi nid add s = .ret n f := by
  by_cases hw : ∃ l, Written multi s l
  · obtain ⟨l, hw⟩ := hw
    have hr := C132_reads multi nid add s l h0 hw
    obtain ⟨b, rfl, hb⟩ := hw
    unfold parseName at hr ⊢
    simp only [Bool.not_true, Bool.or_false, Bool.false_eq_true, if_false, ne_eq, not_true_eq_false] at hr
    split
    · exact ⟨_, _, rfl⟩
    · simp only [ne_eq, not_true_eq_false, if_false, hm, Bool.not_true, Bool.false_eq_true]
      revert hr
      generalize loop multi ((47 :: b).length + 1) (((47 :: b).length + 1) / 2 + 1) (47 :: b).length b ⟨[], [], [], [false]⟩ = x
      intro hr
      cases x with
      | ok s' =>
        dsimp only at hr ⊢
        split
        · exact ⟨_, _, rfl⟩
        · revert hr
          generalize build nid add s'.buf s'.types s'.values s'.mval [] = y
          intro hr
          cases y with
          | ok n => exact ⟨_, _, rfl⟩
          | fail => exact ⟨_, _, rfl⟩
          | ub => cases hr
          | stuck => cases hr
      | fail => exact ⟨_, _, rfl⟩
      | ub => cases hr
      | stuck => cases hr
  · obtain ⟨f, hf⟩ := C132_refuses m multi nid add s h0 hm (fun l hl => hw ⟨l, hl⟩)
    exact ⟨none, f, hf⟩

example : ∀ n, parseName { name := false } false exNid (fun _ _ => true) exText ≠ .ret (some n) [] := by
  intro n h
  have : parseName { name := false } false exNid (fun _ _ => true) exText = .ret none [.values, .types, .buf] := by decide +kernel
  rw [this] at h
  cases h

/-- Without memory for the flags that is false: the first of them is set without a check. -/
theorem C132_flags_false : parseName { mval := false } false exNid (fun _ _ => true) exText = .ub := by decide +kernel

/-- The buffer and the two arrays of pointers are given back, each once, however it ends. -/
theorem C132_freed_partial (m : Mem) (multi : Bool) (nid : List Nat → Option Nat) (add : Nat → List Nat → Bool) (s : List Nat)
    (n : Option Name) (f : List Blk) (h : parseName m multi nid add s = .ret n f) :
    f.Nodup ∧ ∀ b, b ∈ f ↔ m.has b = true ∧ b ≠ .mval := by
  have herr : ∀ n f, error m = .ret n f → f.Nodup ∧ ∀ b, b ∈ f ↔ m.has b = true ∧ b ≠ .mval := by
    intro n f h
    unfold error at h
    cases h
    obtain ⟨b1, b2, b3, b4, b5⟩ := m
    cases b1 <;> cases b2 <;> cases b3 <;> refine ⟨by simp, fun b => ?_⟩ <;> cases b <;> simp [Mem.has]
  unfold parseName at h
  split at h
  · exact herr n f h
  · rename_i hm
    simp only [Bool.or_eq_true, Bool.not_eq_true', not_or, Bool.not_eq_false] at hm
    split at h
    · exact herr n f h
    · split at h
      · exact herr n f h
      · split at h
        · cases h
        · split at h
          · split at h
            · exact herr n f h
            · split at h
              · cases h
                refine ⟨by decide, fun b => ?_⟩
                cases b <;> simp [Mem.has, hm]
              · exact herr n f h
              · cases h
              · cases h
          · exact herr n f h
          · cases h
          · cases h

/-- That all memory is given back is false: the flags never are. -/
theorem C132_freed_false (m : Mem) (multi : Bool) (nid : List Nat → Option Nat) (add : Nat → List Nat → Bool) (s : List Nat)
    (n : Option Name) (f : List Blk) (h : parseName m multi nid add s = .ret n f) : Blk.mval ∉ f := by
  intro hm
  exact (((C132_freed_partial m multi nid add s n f h).2 .mval).1 hm).2 rfl

/-- A name comes only with memory for all of it. -/
theorem C132_memory (m : Mem) (multi : Bool) (nid : List Nat → Option Nat) (add : Nat → List Nat → Bool) (s : List Nat)
    (n : Name) (f : List Blk) (h : parseName m multi nid add s = .ret (some n) f) : m = {} := by
  have herr : error m ≠ .ret (some n) f := by intro h; unfold error at h; cases h
  unfold parseName at h
  split at h
  · exact absurd h herr
  · rename_i hm
    simp only [Bool.or_eq_true, Bool.not_eq_true', not_or, Bool.not_eq_false] at hm
    split at h
    · exact absurd h herr
    · split at h
      · exact absurd h herr
      · split at h
        · cases h
        · rename_i hv
          split at h
          · split at h
            · exact absurd h herr
            · rename_i hn
              obtain ⟨b1, b2, b3, b4, b5⟩ := m
              simp only [Bool.not_eq_true', Bool.not_eq_false] at hm hv hn
              simp [hm, hv, hn]
          · exact absurd h herr
          · cases h
          · cases h

end Verif.Subject
