import Verif.UtilSpec

/-!
# C137: the utilities of the samples for files and keys
-/
namespace Verif.Util

theorem toInt_small (n : Nat) (h : n < 2 ^ 31) : toInt n = n := by
  unfold toInt
  have : n % 2 ^ 32 = n := Nat.mod_eq_of_lt (by omega)
  rw [this, if_pos h]

theorem toInt_bounds (n : Nat) : -(2 ^ 31) ≤ toInt n ∧ toInt n < 2 ^ 31 := by
  unfold toInt
  have : n % 2 ^ 32 < 2 ^ 32 := Nat.mod_lt _ (by decide)
  by_cases h : n % 2 ^ 32 < 2 ^ 31
  · rw [if_pos h]; omega
  · rw [if_neg h]; omega

/-! ## Files -/

/-- A file that is neither empty nor huge is read exactly if nothing fails: the number is its size, the block holds its bytes with a NUL behind
them. -/
theorem C137_read_partial (s : Sys) (bytes : List Nat) (hf : s.file = some bytes) (h0 : bytes ≠ []) (hn : bytes.length < 2 ^ 31 - 1) :
    (s.tell = true ∧ s.rewind = true ∧ s.malloc = true ∧ s.read = true → ∃ b, readFile s = .ret bytes.length (some b) true ∧ Holds b bytes) ∧
    (¬ (s.tell = true ∧ s.rewind = true ∧ s.malloc = true ∧ s.read = true) → ∃ b, readFile s = .ret (-2) b true) := by
  have hlen : toInt bytes.length = bytes.length := toInt_small _ (by omega)
  have hpos : 0 < bytes.length := List.length_pos_iff.2 h0
  unfold readFile
  rw [hf]
  dsimp only
  cases h1 : s.tell with
  | false => exact ⟨fun h => absurd h.1 (by simp), fun _ => ⟨none, by simp⟩⟩
  | true =>
    rw [if_pos rfl, hlen, if_neg (by omega)]
    cases h2 : s.rewind with
    | false => exact ⟨fun h => absurd h.2.1 (by simp), fun _ => ⟨none, by simp⟩⟩
    | true =>
      rw [if_neg (by simp), if_neg (by omega)]
      cases h3 : s.malloc with
      | false => exact ⟨fun h => absurd h.2.2.1 (by simp), fun _ => ⟨none, by simp⟩⟩
      | true =>
        rw [if_neg (by simp)]
        cases h4 : s.read with
        | false => exact ⟨fun h => absurd h.2.2.2 (by simp), fun _ => ⟨some [], by simp⟩⟩
        | true =>
          refine ⟨fun _ => ⟨_, by rw [if_neg (by simp; omega)], ?_⟩, fun h => absurd ⟨rfl, rfl, rfl, rfl⟩ h⟩
          unfold Holds
          simp

example : readFile { file := some [1, 2, 3] } = .ret 3 (some [1, 2, 3, 0]) true := by decide

/-- A file that cannot be opened is told apart. -/
theorem C137_missing (s : Sys) : (∃ b c, readFile s = .ret (-1) b c) ↔ s.file = none := by
  constructor
  · intro ⟨b, c, h⟩
    cases hf : s.file with
    | none => rfl
    | some bytes =>
      exfalso
      unfold readFile at h
      rw [hf] at h
      dsimp only at h
      generalize (if s.tell = true then toInt bytes.length else -1) = len at h
      repeat' split at h
      all_goals first | (cases h; done) | skip
      rename_i q1 _ _ _ _
      injection h with h
      omega
  · intro h
    exact ⟨none, true, by unfold readFile; rw [h]⟩

/-- What is written without a failure is read back. -/
theorem C137_roundtrip (w r : Sys) (contents : List Nat) (h0 : contents ≠ []) (hn : contents.length < 2 ^ 31 - 1) (hw : w.opens = true ∧ w.writes = none)
    (hr : r.tell = true ∧ r.rewind = true ∧ r.malloc = true ∧ r.read = true) :
    ∃ b, readFile { r with file := writeFile w contents } = .ret contents.length (some b) true ∧ Holds b contents := by
  have hf : writeFile w contents = some contents := by
    unfold writeFile
    rw [hw.1, hw.2]
    rfl
  rw [hf]
  exact (C137_read_partial { r with file := some contents } contents rfl h0 hn).1 hr

example : writeFile { file := none } [1, 2] = some [1, 2] := by decide

/-- That a failure to write is seen is false: a disk that is full leaves a part of the contents, which is then read as a file. -/
theorem C137_write_false : ∃ (w r : Sys) (b : List Nat), readFile { r with file := writeFile w [1, 2, 3] } = .ret 1 (some b) true ∧ Holds b [1] :=
  ⟨{ file := none, writes := some 1 }, { file := none }, [1, 0], by decide, rfl⟩

/-- A file that cannot be opened for writing is not there afterwards. -/
theorem C137_unopened (w r : Sys) (contents : List Nat) (h : w.opens = false) :
    readFile { r with file := writeFile w contents } = .ret (-1) none true := by
  simp [writeFile, h, readFile]

example : readFile { file := writeFile { file := none, opens := false } [1, 2] } = .ret (-1) none true := by decide

/-- An empty file is an error, and its block is left behind. -/
theorem C137_empty_false : readFile { file := some [] } = .ret (-2) (some []) true := by decide

/-- A file of more than 4 GB is read as its beginning, with success. -/
theorem C137_big_false (bytes : List Nat) (h : bytes.length = 2 ^ 32 + 5) : readFile { file := some bytes } = .ret 5 (some (bytes.take 5 ++ [0])) true := by
  have : toInt bytes.length = 5 := by rw [h]; decide
  unfold readFile
  dsimp only
  rw [if_pos rfl, this, if_neg (by decide), if_neg (by decide), if_neg (by decide), if_neg (by decide), if_neg (by decide)]
  rfl

/-- At one byte less than 2 GB the sum overflows. -/
theorem C137_overflow_false (bytes : List Nat) (h : bytes.length = 2 ^ 31 - 1) : readFile { file := some bytes } = .ub := by
  have : toInt bytes.length = 2 ^ 31 - 1 := by rw [h]; decide
  unfold readFile
  dsimp only
  rw [if_pos rfl, this, if_neg (by decide), if_neg (by decide), if_pos (by decide)]

/-- It happens nowhere else, and a number above 0 always comes with a block of that many bytes and a NUL; the file is always closed. -/
theorem C137_block (s : Sys) :
    (readFile s = .ub → ∃ bytes, s.file = some bytes ∧ bytes.length % 2 ^ 32 = 2 ^ 31 - 1) ∧
    (∀ code b c, readFile s = .ret code b c → c = true ∧ (0 ≤ code → 0 < code ∧ ∃ t bytes, b = some (t ++ [0]) ∧ (t.length : Int) = code ∧ s.file = some bytes ∧ t = bytes.take t.length)) := by
  cases hf : s.file with
  | none =>
    unfold readFile
    rw [hf]
    refine ⟨fun h => (by cases h), fun code b c h => ?_⟩
    cases h
    exact ⟨rfl, fun h => by omega⟩
  | some bytes =>
    unfold readFile
    rw [hf]
    dsimp only
    have hb := toInt_bounds bytes.length
    have hle : 0 ≤ toInt bytes.length → toInt bytes.length ≤ bytes.length ∧ (toInt bytes.length = 2 ^ 31 - 1 → bytes.length % 2 ^ 32 = 2 ^ 31 - 1) := by
      unfold toInt
      have h1 : bytes.length % 2 ^ 32 ≤ bytes.length := Nat.mod_le _ _
      have h2 : bytes.length % 2 ^ 32 < 2 ^ 32 := Nat.mod_lt _ (by decide)
      by_cases h : bytes.length % 2 ^ 32 < 2 ^ 31
      · rw [if_pos h]
        intro _
        exact ⟨by omega, fun h => by omega⟩
      · rw [if_neg h]
        intro h
        omega
    cases h1 : s.tell with
    | false =>
      refine ⟨fun h => (by cases h), fun code b c h => ?_⟩
      cases h
      exact ⟨rfl, fun h => by omega⟩
    | true =>
      rw [if_pos rfl]
      generalize toInt bytes.length = len at hb hle
      by_cases g1 : len < 0
      · rw [if_pos g1]
        refine ⟨fun h => (by cases h), fun code b c h => ?_⟩
        cases h
        exact ⟨rfl, fun h => by omega⟩
      · rw [if_neg g1]
        cases h2 : s.rewind with
        | false =>
          refine ⟨fun h => (by cases h), fun code b c h => ?_⟩
          cases h
          exact ⟨rfl, fun h => by omega⟩
        | true =>
          rw [if_neg (by simp)]
          by_cases g2 : len + 1 ≥ 2 ^ 31
          · rw [if_pos g2]
            exact ⟨fun _ => ⟨bytes, rfl, (hle (by omega)).2 (by omega)⟩, fun code b c h => by cases h⟩
          · rw [if_neg g2]
            refine ⟨?_, fun code b c h => ?_⟩
            · intro h
              repeat' split at h
              all_goals cases h
            split at h
            · cases h
              exact ⟨rfl, fun h => by omega⟩
            · split at h
              · cases h
                exact ⟨rfl, fun h => by omega⟩
              · rename_i g4
                cases h
                have hk := (hle (by omega)).1
                have : (bytes.take len.toNat).length = len.toNat := by
                  rw [List.length_take]
                  omega
                refine ⟨rfl, fun _ => ⟨?_, bytes.take len.toNat, bytes, rfl, by rw [this]; omega, rfl, by rw [this]⟩⟩
                have : len ≠ 0 := fun h => g4 (.inl h)
                omega

/-! ## Keys -/

theorem hasWord_sound (w t : List Nat) (h : hasWord w t = true) : Contains t w := by
  induction t with
  | nil =>
    unfold hasWord at h
    exact ⟨[], [], by simpa using h⟩
  | cons c r ih =>
    unfold hasWord at h
    rw [Bool.or_eq_true] at h
    rcases h with h | h
    · obtain ⟨b, hb⟩ := List.isPrefixOf_iff_prefix.1 h
      exact ⟨[], b, by rw [← hb]; rfl⟩
    · obtain ⟨a, b, e⟩ := ih h
      exact ⟨c :: a, b, by rw [e]; rfl⟩

/-- What the loop gives: a good text, one block for it, nothing else. -/
theorem loop_out (cb : Bool) (good : List Nat → Bool) (l : List Round) (m : Live) (k : Option (List Nat)) (m' : Live) (h : loop cb good l m = some (k, m')) :
    (k = none → m' = m) ∧ (∀ b, k = some b → m' = { m with blocks := m.blocks + 1 } ∧ ∃ r ∈ l, Holds b r.text ∧ good (cstr r.text) = true) := by
  induction l with
  | nil => cases h
  | cons a l ih =>
    have next : loop cb good l m = some (k, m') → (k = none → m' = m) ∧ (∀ b, k = some b → m' = { m with blocks := m.blocks + 1 } ∧
        ∃ r ∈ a :: l, Holds b r.text ∧ good (cstr r.text) = true) := by
      intro h
      obtain ⟨h1, h2⟩ := ih h
      refine ⟨h1, fun b hb => ⟨(h2 b hb).1, ?_⟩⟩
      obtain ⟨r, hr, hx⟩ := (h2 b hb).2
      exact ⟨r, List.mem_cons_of_mem _ hr, hx⟩
    have stop : some ((none : Option (List Nat)), m) = some (k, m') → (k = none → m' = m) ∧ (∀ b, k = some b → m' = { m with blocks := m.blocks + 1 } ∧
        ∃ r ∈ a :: l, Holds b r.text ∧ good (cstr r.text) = true) := by
      intro h
      cases h
      exact ⟨fun _ => rfl, fun b hb => by cases hb⟩
    rw [loop] at h
    by_cases g1 : a.bio = true
    · rw [if_neg (by simp [g1])] at h
      by_cases g2 : a.malloc = true
      · rw [if_neg (by simp [g2])] at h
        by_cases g3 : good (cstr a.text) = true
        · rw [if_pos g3] at h
          cases h
          refine ⟨fun h => (by cases h), fun b hb => ?_⟩
          cases hb
          exact ⟨rfl, a, List.mem_cons_self, rfl, g3⟩
        · rw [if_neg g3] at h
          split at h
          · exact next h
          · exact stop h
      · rw [if_pos (by simp [g2])] at h
        split at h
        · exact next h
        · exact stop h
    · rw [if_pos (by simp [g1])] at h
      exact stop h

/-- An RSA key given back is a text that was written, not empty; nothing but its block remains. -/
theorem C137_rsa (rsa bn cb : Bool) (l : List Round) (m m' : Live) (k : Option (List Nat)) (h : genRsa rsa bn cb l m = some (k, m')) :
    (k = none → m' = m) ∧ (∀ b, k = some b → m' = { m with blocks := m.blocks + 1 } ∧ ∃ r ∈ l, Holds b r.text ∧ ∃ c q, r.text = c :: q ∧ c ≠ 0) := by
  unfold genRsa at h
  cases rsa with
  | false => cases h; exact ⟨fun _ => rfl, fun b hb => by cases hb⟩
  | true =>
    rw [if_neg (by simp)] at h
    dsimp only at h
    cases bn with
    | false =>
      cases h
      exact ⟨fun _ => by simp, fun b hb => by cases hb⟩
    | true =>
      rw [if_neg (by simp)] at h
      cases hl : loop cb (fun t => !t.isEmpty) l { m with keys := m.keys + 1, nums := m.nums + 1 } with
      | none => rw [hl] at h; cases h
      | some r =>
        rw [hl] at h
        cases h
        obtain ⟨h1, h2⟩ := loop_out cb _ l _ r.1 r.2 hl
        refine ⟨fun hk => by rw [h1 hk]; simp, fun b hb => ⟨by rw [(h2 b hb).1]; simp, ?_⟩⟩
        obtain ⟨x, hx, hh, hg⟩ := (h2 b hb).2
        refine ⟨x, hx, hh, ?_⟩
        cases ht : x.text with
        | nil => rw [ht] at hg; simp [cstr] at hg
        | cons c q =>
          refine ⟨c, q, rfl, fun h0 => ?_⟩
          rw [ht] at hg
          simp [cstr, h0] at hg

/-- An EC key given back is a text that was written and has the line that begins a key; its group always remains, and after an error
the key may as well. -/
theorem C137_ec_partial (key group set gen cb : Bool) (l : List Round) (m m' : Live) (k : Option (List Nat)) (h : genEc key group set gen cb l m = some (k, m')) :
    (∀ b, k = some b → m' = { m with blocks := m.blocks + 1, groups := m.groups + 1 } ∧ ∃ r ∈ l, Holds b r.text ∧ Contains (cstr r.text) ecLine) ∧
    (k = none → m'.nums = m.nums ∧ m'.bios = m.bios ∧ m'.blocks = m.blocks ∧ m'.keys ≤ m.keys + 1 ∧ m'.groups ≤ m.groups + 1) := by
  unfold genEc at h
  cases key with
  | false => cases h; exact ⟨fun b hb => (by cases hb), fun _ => ⟨rfl, rfl, rfl, by omega, by omega⟩⟩
  | true =>
    rw [if_neg (by simp)] at h
    dsimp only at h
    cases group with
    | false => cases h; exact ⟨fun b hb => (by cases hb), fun _ => ⟨rfl, rfl, rfl, by simp, by simp⟩⟩
    | true =>
      rw [if_neg (by simp)] at h
      cases set with
      | false => cases h; exact ⟨fun b hb => (by cases hb), fun _ => ⟨rfl, rfl, rfl, by simp, by simp⟩⟩
      | true =>
        rw [if_neg (by simp)] at h
        cases gen with
        | false => cases h; exact ⟨fun b hb => (by cases hb), fun _ => ⟨rfl, rfl, rfl, by simp, by simp⟩⟩
        | true =>
          rw [if_neg (by simp)] at h
          cases hl : loop cb (hasWord ecLine) l { m with keys := m.keys + 1, groups := m.groups + 1 } with
          | none => rw [hl] at h; cases h
          | some r =>
            rw [hl] at h
            cases h
            obtain ⟨h1, h2⟩ := loop_out cb _ l _ r.1 r.2 hl
            refine ⟨fun b hb => ⟨by rw [(h2 b hb).1]; simp, ?_⟩, fun hk => by rw [h1 hk]; exact ⟨rfl, rfl, rfl, by simp, by simp⟩⟩
            obtain ⟨x, hx, hh, hg⟩ := (h2 b hb).2
            exact ⟨x, hx, hh, hasWord_sound _ _ hg⟩

/-- A text of a key. -/
def exText : List Nat := ecLine ++ [10, 77, 72, 99]

example : genEc true true true true false [⟨true, exText, true⟩] {} = some (some (exText ++ [0]), { groups := 1, blocks := 1 }) := by decide

/-- That everything else is released is false: every call leaves the group, and a curve that is not known leaves the key. -/
theorem C137_ec_false (cb : Bool) (l : List Round) (m : Live) : genEc true false true true cb l m = some (none, { m with keys := m.keys + 1 }) := rfl

/-- A call ends if a round ends it: one with a good text, or one without a BIO; without a callback the first does. -/
theorem C137_ends_partial (cb : Bool) (good : List Nat → Bool) (l : List Round) (m : Live)
    (h : ∃ r ∈ l, r.bio = false ∨ cb = false ∨ (r.malloc = true ∧ good (cstr r.text) = true)) : ∃ x, loop cb good l m = some x := by
  induction l with
  | nil => obtain ⟨r, hr, _⟩ := h; cases hr
  | cons a l ih =>
    rw [loop]
    by_cases g1 : a.bio = true
    · rw [if_neg (by simp [g1])]
      cases cb with
      | false =>
        split
        · exact ⟨_, rfl⟩
        · split
          · exact ⟨_, rfl⟩
          · exact ⟨_, rfl⟩
      | true =>
        by_cases g2 : a.malloc = true ∧ good (cstr a.text) = true
        · rw [if_neg (by simp [g2.1]), if_pos g2.2]
          exact ⟨_, rfl⟩
        · have hn : ∃ r ∈ l, r.bio = false ∨ true = false ∨ (r.malloc = true ∧ good (cstr r.text) = true) := by
            obtain ⟨r, hr, hx⟩ := h
            rcases List.mem_cons.1 hr with rfl | hr
            · rcases hx with hx | hx | hx
              · rw [hx] at g1; cases g1
              · cases hx
              · exact absurd hx g2
            · exact ⟨r, hr, hx⟩
          split
          · exact ih hn
          · split
            · exact ⟨_, rfl⟩
            · exact ih hn
    · rw [if_pos (by simp [g1])]
      exact ⟨_, rfl⟩

/-- That a call ends is false: with a callback for the passphrase, a key that could not be generated (whose text stays empty) is tried
for ever. -/
theorem C137_endless_false (n : Nat) (m : Live) : genRsa true true true (List.replicate n ⟨true, [], true⟩) m = none := by
  have : ∀ n m, loop true (fun t => !t.isEmpty) (List.replicate n ⟨true, [], true⟩) m = none := by
    intro n
    induction n with
    | zero => intro m; rfl
    | succ n ih =>
      intro m
      rw [List.replicate_succ, loop]
      exact ih m
  unfold genRsa
  simp [this]

/-- A key is read from a text by the decoder of the format given, without a trace. -/
theorem C137_load {K : Type} (pem der : List Nat → Option K) (text : Option (List Nat)) (format : Int) (bio : Bool) (bios : Nat) :
    (loadKey pem der text format bio bios).2 = bios ∧
    ∀ k, (loadKey pem der text format bio bios).1 = some k ↔ bio = true ∧ ∃ t, text = some t ∧ ((format = 1 ∧ pem t = some k) ∨ (format = 2 ∧ der t = some k)) := by
  unfold loadKey
  cases text with
  | none => simp
  | some t =>
    cases bio with
    | false => simp
    | true =>
      by_cases h0 : format = 1
      · subst h0; simp
      · by_cases h1 : format = 2
        · subst h1; simp
        · simp [h0, h1]

/-- The key of a file is read, but a file that is not there leaves a BIO. -/
theorem C137_file_false {K : Type} (pem : List Nat → Option K) (bios : Nat) :
    readKey pem none bios = (none, bios + 1) ∧ ∀ t, readKey pem (some t) bios = (pem t, bios) := ⟨rfl, fun _ => rfl⟩

end Verif.Util
