import Verif.HttpHdrModel

/-! # Properties of the header parser (C18, C46) -/
namespace Verif.HttpHdr

/-! ## Specification -/

/-- One header line: name, colon, `k` spaces, value, CR LF. -/
def line (h : Hdr) (k : Nat) : List Nat :=
  h.name ++ 58 :: (List.replicate k 32 ++ (h.value ++ [13, 10]))

/-- A header that can be written: the name is not empty and has no colon, CR or
LF; the value has no CR or LF and does not start with a space. -/
structure WellFormed (h : Hdr) : Prop where
  nonempty : h.name ≠ []
  name : ∀ c ∈ h.name, c ≠ 58 ∧ c ≠ 13 ∧ c ≠ 10
  value : ∀ c ∈ h.value, c ≠ 13 ∧ c ≠ 10
  start : h.value.head? ≠ some 32

/-- Equality up to ASCII case. -/
def lower (c : Nat) : Nat := if 65 ≤ c ∧ c ≤ 90 then c + 32 else c
def SameText (a b : List Nat) : Prop := a.map lower = b.map lower

/-! ## Lemmas -/

theorem wordOf_append (ds w t : List Nat) (d : Nat) (hw : ∀ c ∈ w, c ∉ ds) (hd : d ∈ ds) :
    wordOf ds (w ++ d :: t) = w := by
  unfold wordOf
  rw [List.takeWhile_append_of_pos]
  · simp [List.takeWhile, hd]
  · intro c hc; simpa using hw c hc

theorem skipWord_append (ds ws w t : List Nat) (d : Nat) (hw : ∀ c ∈ w, c ∉ ds) (hd : d ∈ ds) :
    skipWord ds ws (w ++ d :: t) = (w, t.dropWhile (fun c => ws.contains c)) := by
  unfold skipWord
  simp only [wordOf_append ds w t d hw hd, List.drop_left]

theorem dropWhile_none (ws t : List Nat) (h : ∀ c, t.head? = some c → c ∉ ws) :
    t.dropWhile (fun c => ws.contains c) = t := by
  cases t with
  | nil => rfl
  | cons c t =>
    have := h c rfl
    rw [List.dropWhile_cons_of_neg]; simpa using this

theorem dropWhile_replicate (k : Nat) (t : List Nat) :
    (List.replicate k 32 ++ t).dropWhile (fun c => [32].contains c) =
      t.dropWhile (fun c => [32].contains c) := by
  induction k with
  | zero => rfl
  | succ k ih => simp only [List.replicate_succ, List.cons_append]; rw [List.dropWhile_cons_of_pos (by simp)]; exact ih

theorem line_head (h : Hdr) (hw : WellFormed h) (k : Nat) (t : List Nat) :
    ∀ c, (line h k ++ t).head? = some c → c ∉ [13, 10] := by
  intro c hc
  unfold line at hc
  cases hn : h.name with
  | nil => exact absurd hn hw.nonempty
  | cons x xs =>
    rw [hn] at hc
    simp at hc
    have := hw.name x (by rw [hn]; simp)
    subst hc; simp; omega

/-- Text after the request line: the header lines and what remains of the empty
line. -/
def lines (hs : List (Hdr × Nat)) (tail : List Nat) : List Nat :=
  match hs with
  | [] => tail
  | (h, k) :: hs => line h k ++ lines hs tail

theorem dropWhile_lines (hs : List (Hdr × Nat)) (hw : ∀ p ∈ hs, WellFormed p.1) (tail : List Nat)
    (ht : ∀ c ∈ tail, c = 13 ∨ c = 10) :
    (lines hs tail).dropWhile (fun c => [13, 10].contains c) =
      if hs = [] then [] else lines hs tail := by
  cases hs with
  | nil =>
    simp only [lines, if_true]
    induction tail with
    | nil => rfl
    | cons c t ih =>
      rw [List.dropWhile_cons_of_pos]
      · exact ih (fun x hx => ht x (List.mem_cons_of_mem _ hx))
      · have := ht c (by simp); simpa using this
  | cons p hs =>
    rw [if_neg (by simp)]
    obtain ⟨h, k⟩ := p
    exact dropWhile_none _ _ (line_head h (hw (h, k) (by simp)) k _)

theorem parse_line (n : Nat) (h : Hdr) (k : Nat) (t : List Nat) (hw : WellFormed h) :
    parseHeaders (n + 1) (line h k ++ t) =
      h :: parseHeaders n ((13 :: 10 :: t).dropWhile (fun c => [13, 10].contains c)) := by
  have h1 : skipWord [58] [32] (line h k ++ t) = (h.name, h.value ++ 13 :: 10 :: t) := by
    have : line h k ++ t = h.name ++ 58 :: (List.replicate k 32 ++ (h.value ++ 13 :: 10 :: t)) := by
      simp [line]
    rw [this, skipWord_append [58] [32] _ _ 58 (fun c hc => by
      have := hw.name c hc; simp; exact this.1) (by simp), dropWhile_replicate,
      dropWhile_none]
    intro c hc
    cases hv : h.value with
    | nil => rw [hv] at hc; simp at hc; subst hc; simp
    | cons x xs =>
      rw [hv] at hc; simp at hc; subst hc
      have := hw.start
      rw [hv] at this
      simpa using this
  have h2 : skip [13, 10] (h.value ++ 13 :: 10 :: t) =
      (h.value, (10 :: t).dropWhile (fun c => [13, 10].contains c)) := by
    unfold skip
    rw [skipWord_append [13, 10] [13, 10] _ _ 13 (fun c hc => by
      have := hw.value c hc; simp; exact this) (by simp)]
  simp only [parseHeaders, h1, h2]
  rw [if_neg hw.nonempty]
  congr 1

theorem parse_nil (n : Nat) : parseHeaders n [] = [] := by
  cases n with
  | zero => rfl
  | succ n => simp [parseHeaders, skipWord, wordOf]

/-! ## C46 -/

/-- C46: parsing the header lines gives back the headers, the first `n` of them
(`n` is 64 in the server), whatever number of spaces follows each colon.
`tail` is what is left of the final empty line. -/
theorem C46_headers_round_trip (n : Nat) (hs : List (Hdr × Nat)) (tail : List Nat)
    (hw : ∀ p ∈ hs, WellFormed p.1) (ht : ∀ c ∈ tail, c = 13 ∨ c = 10) :
    parseHeaders n (if hs = [] then [] else lines hs tail) = (hs.map (·.1)).take n := by
  induction hs generalizing n with
  | nil => simp [parse_nil]
  | cons p hs ih =>
    obtain ⟨h, k⟩ := p
    rw [if_neg (by simp)]
    cases n with
    | zero => simp [parseHeaders]
    | succ n =>
      simp only [lines]
      rw [parse_line n h k _ (hw (h, k) (by simp))]
      have hd : (13 :: 10 :: lines hs tail).dropWhile (fun c => [13, 10].contains c) =
          (lines hs tail).dropWhile (fun c => [13, 10].contains c) := by
        rw [List.dropWhile_cons_of_pos (by simp), List.dropWhile_cons_of_pos (by simp)]
      have hw' : ∀ p ∈ hs, WellFormed p.1 := fun p hp => hw p (List.mem_cons_of_mem _ hp)
      rw [hd, dropWhile_lines hs hw' tail ht, ih n hw']
      rfl

/-- C46: the parser never stores more headers than there is room for. -/
theorem C46_header_count (n : Nat) (t : List Nat) : (parseHeaders n t).length ≤ n := by
  induction n generalizing t with
  | zero => simp [parseHeaders]
  | succ n ih =>
    simp only [parseHeaders]
    split
    · simp
    · simp; exact ih _

/-- C46: a whole request message is taken apart into what it was written from. -/
theorem C46_message_round_trip (method uri version : List Nat) (hs : List (Hdr × Nat))
    (hm : ∀ c ∈ method, c ≠ 32) (hm0 : ∀ c, method.head? = some c → isSpace c = false)
    (hmne : method ≠ [])
    (hu : ∀ c ∈ uri, c ≠ 32) (hu0 : uri ≠ [])
    (hv : ∀ c ∈ version, c ≠ 13 ∧ c ≠ 10) (hv0 : version.head? ≠ some 32)
    (hw : ∀ p ∈ hs, WellFormed p.1) :
    parseMessage (method ++ 32 :: (uri ++ 32 :: (version ++ 13 :: 10 :: lines hs [13, 10]))) =
      ⟨method, uri, version, (hs.map (·.1)).take 64⟩ := by
  have hlast : ∀ (hs : List (Hdr × Nat)), ∃ body, lines hs [13, 10] = body ++ [10] ∧
      body = lines hs [13] := by
    intro hs
    induction hs with
    | nil => exact ⟨[13], rfl, rfl⟩
    | cons p hs ih =>
      obtain ⟨b, hb, rfl⟩ := ih
      exact ⟨line p.1 p.2 ++ lines hs [13], by simp [lines, hb], rfl⟩
  obtain ⟨body, hb1, hb2⟩ := hlast hs
  unfold parseMessage
  have htext : ∀ (pre : List Nat), (pre ++ [10]).take ((pre ++ [10]).length - 1) = pre := by
    intro pre; simp
  have hwhole : method ++ 32 :: (uri ++ 32 :: (version ++ 13 :: 10 :: lines hs [13, 10])) =
      (method ++ 32 :: (uri ++ 32 :: (version ++ 13 :: 10 :: body))) ++ [10] := by
    rw [hb1]; simp
  rw [hwhole, htext]
  have hd : (method ++ 32 :: (uri ++ 32 :: (version ++ 13 :: 10 :: body))).dropWhile isSpace =
      method ++ 32 :: (uri ++ 32 :: (version ++ 13 :: 10 :: body)) := by
    cases method with
    | nil => exact absurd rfl hmne
    | cons c m =>
      rw [List.cons_append, List.dropWhile_cons_of_neg]
      have := hm0 c rfl
      simp [this]
  simp only [hd]
  have e1 : skip [32] (method ++ 32 :: (uri ++ 32 :: (version ++ 13 :: 10 :: body))) =
      (method, uri ++ 32 :: (version ++ 13 :: 10 :: body)) := by
    unfold skip
    rw [skipWord_append [32] [32] _ _ 32 (fun c hc => by simpa using hm c hc) (by simp),
      dropWhile_none]
    intro c hc
    cases uri with
    | nil => exact absurd rfl hu0
    | cons x xs => simp at hc; subst hc; simpa using hu x (by simp)
  have e2 : skip [32] (uri ++ 32 :: (version ++ 13 :: 10 :: body)) =
      (uri, version ++ 13 :: 10 :: body) := by
    unfold skip
    rw [skipWord_append [32] [32] _ _ 32 (fun c hc => by simpa using hu c hc) (by simp),
      dropWhile_none]
    intro c hc
    cases version with
    | nil => simp at hc; subst hc; simp
    | cons x xs => simp at hc hv0; subst hc; simpa using hv0
  have e3 : skip [13, 10] (version ++ 13 :: 10 :: body) =
      (version, if hs = [] then [] else lines hs [13]) := by
    unfold skip
    rw [skipWord_append [13, 10] [13, 10] _ _ 13 (fun c hc => by
      have := hv c hc; simp; exact this) (by simp),
      List.dropWhile_cons_of_pos (by simp), hb2, dropWhile_lines hs hw [13] (by simp)]
  simp only [e1, e2, e3]
  rw [C46_headers_round_trip maxHeaders hs [13] hw (by simp)]
  rfl

/-- "GET /x HTTP/1.1", "Host: a", "Connection:close". -/
example : parseMessage [71, 69, 84, 32, 47, 120, 32, 72, 84, 84, 80, 47, 49, 46, 49, 13, 10, 72, 111, 115, 116, 58, 32, 97, 13, 10, 67, 111, 110, 110, 101, 99, 116, 105, 111, 110, 58, 99, 108, 111, 115, 101, 13, 10, 13, 10] =
    ⟨[71, 69, 84], [47, 120], [72, 84, 84, 80, 47, 49, 46, 49], [⟨[72, 111, 115, 116], [97]⟩, ⟨[67, 111, 110, 110, 101, 99, 116, 105, 111, 110], [99, 108, 111, 115, 101]⟩]⟩ := by decide

theorem caseEq_iff (a b : List Nat) : caseEq a b = true ↔ SameText a b := by
  unfold SameText
  induction a generalizing b with
  | nil => cases b <;> simp [caseEq]
  | cons x a ih =>
    cases b with
    | nil => simp [caseEq]
    | cons y b =>
      have : ∀ z, toLower z = lower z := fun z => rfl
      simp only [caseEq, List.map_cons, List.cons.injEq, this]
      by_cases h : lower x = lower y
      · simp [h, ih]
      · simp [h]

/-- C46: look-up finds the value of the first header whose name agrees up to
letter case, and nothing if there is none. -/
theorem C46_lookup_first_match (hs : List Hdr) (name : List Nat) :
    (∀ v, getHeader hs name = some v ↔ ∃ pre h post, hs = pre ++ h :: post ∧ h.value = v ∧
      SameText name h.name ∧ ∀ x ∈ pre, ¬ SameText name x.name) ∧
    (getHeader hs name = none ↔ ∀ h ∈ hs, ¬ SameText name h.name) := by
  induction hs with
  | nil => simp [getHeader]
  | cons h hs ih =>
    simp only [getHeader]
    by_cases hc : caseEq name h.name = true
    · simp only [hc, if_true]
      have hs' := (caseEq_iff _ _).1 hc
      refine ⟨fun v => ⟨?_, ?_⟩, by simp [hs']⟩
      · intro hv; simp at hv
        exact ⟨[], h, hs, rfl, hv, hs', by simp⟩
      · rintro ⟨pre, h', post, he, hv, hst, hpre⟩
        cases pre with
        | nil => simp at he; obtain ⟨rfl, _⟩ := he; simp [hv]
        | cons x pre =>
          simp at he; obtain ⟨rfl, _⟩ := he
          exact absurd hs' (hpre h (by simp))
    · rw [if_neg hc]
      have hs' : ¬ SameText name h.name := fun h' => hc ((caseEq_iff _ _).2 h')
      refine ⟨fun v => ?_, ?_⟩
      · rw [ih.1 v]
        constructor
        · rintro ⟨pre, h', post, rfl, hv, hst, hpre⟩
          refine ⟨h :: pre, h', post, rfl, hv, hst, ?_⟩
          intro x hx; simp at hx
          rcases hx with rfl | hx
          · exact hs'
          · exact hpre x hx
        · rintro ⟨pre, h', post, he, hv, hst, hpre⟩
          cases pre with
          | nil => simp at he; obtain ⟨rfl, _⟩ := he; exact absurd hst hs'
          | cons x pre =>
            simp at he; obtain ⟨rfl, rfl⟩ := he
            exact ⟨pre, h', post, rfl, hv, hst, fun y hy => hpre y (List.mem_cons_of_mem _ hy)⟩
      · rw [ih.2]; simp [hs']

example : getHeader [⟨[72, 111, 115, 116], [1]⟩, ⟨[67, 79, 78, 78, 69, 67, 84, 73, 79, 78], [2]⟩, ⟨[67, 111, 110, 110, 101, 99, 116, 105, 111, 110], [3]⟩] [99, 111, 110, 110, 101, 99, 116, 105, 111, 110]
    = some [2] := by decide

/-! ## C18 -/

/-- What the client asks for: the first Connection header decides, else the
version. -/
def ClientWantsKeepAlive (k : KA) : Prop :=
  (∃ pre h post, k.hdrs = pre ++ h :: post ∧ SameText [67, 111, 110, 110, 101, 99, 116, 105, 111, 110] h.name ∧
    (∀ x ∈ pre, ¬ SameText [67, 111, 110, 110, 101, 99, 116, 105, 111, 110] x.name) ∧ SameText h.value [107, 101, 101, 112, 45, 97, 108, 105, 118, 101]) ∨
  ((∀ h ∈ k.hdrs, ¬ SameText [67, 111, 110, 110, 101, 99, 116, 105, 111, 110] h.name) ∧
    ∀ v, k.version = some v → [49, 46, 49] <+: v)

/-- C18: the keep-alive decision. -/
theorem C18_keep_alive (k : KA) :
    shouldKeepAlive k = true ↔
      k.mustClose = false ∧ k.status ≠ 202 ∧ k.status < 400 ∧ k.enabled = true ∧
      ClientWantsKeepAlive k := by
  have hl := C46_lookup_first_match k.hdrs [67, 111, 110, 110, 101, 99, 116, 105, 111, 110]
  unfold shouldKeepAlive ClientWantsKeepAlive
  cases hg : getHeader k.hdrs [67, 111, 110, 110, 101, 99, 116, 105, 111, 110] with
  | none =>
    have hn := hl.2.1 hg
    have hno : ¬ ∃ pre h post, k.hdrs = pre ++ h :: post ∧ SameText [67, 111, 110, 110, 101, 99, 116, 105, 111, 110] h.name ∧
        (∀ x ∈ pre, ¬ SameText [67, 111, 110, 110, 101, 99, 116, 105, 111, 110] x.name) ∧ SameText h.value [107, 101, 101, 112, 45, 97, 108, 105, 118, 101] := by
      rintro ⟨pre, h, post, he, hs, _⟩
      exact hn h (by rw [he]; simp) hs
    simp only [hno, false_or]
    rw [show (∀ h ∈ k.hdrs, ¬ SameText [67, 111, 110, 110, 101, 99, 116, 105, 111, 110] h.name) = True from eq_true hn]
    cases hv : k.version with
    | none => cases k.mustClose <;> cases k.enabled <;> simp
    | some v =>
      have : [49, 46, 49] <+: v ↔ [49, 46, 49].isPrefixOf v = true := List.isPrefixOf_iff_prefix.symm
      simp only [Option.some.injEq, forall_eq', this, true_and]
      cases hx : [49, 46, 49].isPrefixOf v <;> cases k.mustClose <;> cases k.enabled <;> simp
  | some v =>
    obtain ⟨pre, h, post, he, hv, hs, hpre⟩ := (hl.1 v).1 hg
    have hsome : (∃ pre h post, k.hdrs = pre ++ h :: post ∧ SameText [67, 111, 110, 110, 101, 99, 116, 105, 111, 110] h.name ∧
        (∀ x ∈ pre, ¬ SameText [67, 111, 110, 110, 101, 99, 116, 105, 111, 110] x.name) ∧ SameText h.value [107, 101, 101, 112, 45, 97, 108, 105, 118, 101]) ↔
        SameText v [107, 101, 101, 112, 45, 97, 108, 105, 118, 101] := by
      constructor
      · rintro ⟨pre', h', post', he', hs', hpre', hv'⟩
        have := (hl.1 h'.value).2 ⟨pre', h', post', he', rfl, hs', hpre'⟩
        rw [hg] at this; simp at this; rw [this]; exact hv'
      · intro hk; exact ⟨pre, h, post, he, hs, hpre, by rw [hv]; exact hk⟩
    have hnone : ¬ ∀ h ∈ k.hdrs, ¬ SameText [67, 111, 110, 110, 101, 99, 116, 105, 111, 110] h.name :=
      fun hn => hn h (by rw [he]; simp) hs
    simp only [hsome, hnone, false_and, or_false]
    rw [← caseEq_iff]
    cases hx : caseEq v [107, 101, 101, 112, 45, 97, 108, 105, 118, 101] <;> cases k.mustClose <;> cases k.enabled <;> simp

example : shouldKeepAlive ⟨false, 200, true, some [49, 46, 48], [⟨[99, 111, 110, 110, 101, 99, 116, 105, 111, 110], [75, 101, 101, 112, 45, 65, 108, 105, 118, 101]⟩]⟩ = true ∧
    shouldKeepAlive ⟨false, 202, true, some [49, 46, 49], []⟩ = false := by decide

end Verif.HttpHdr
