import Verif.SampleCaModel

/-!
# Lemmas about the sample certification authority
-/

namespace Verif.SampleCa

/-! ### Numbers -/

theorem digit_hex (d : Nat) (h : d < 16) : isHex (digit d) = true ∧ hexDigit (digit d) = d ∧
    digit d ≠ 10 ∧ digit d ≠ 45 := by
  have : ∀ d < 16, isHex (digit d) = true ∧ hexDigit (digit d) = d ∧ digit d ≠ 10 ∧
    digit d ≠ 45 := by decide
  exact this d h

theorem foldl_append_val (a : Nat) (t : List Nat) (b : Nat) (hb : b < 256) :
    (t ++ [digit (b / 16), digit (b % 16)]).foldl (fun a c => 16 * a + hexDigit c) a =
      256 * t.foldl (fun a c => 16 * a + hexDigit c) a + b := by
  rw [List.foldl_append]
  simp only [List.foldl_cons, List.foldl_nil]
  rw [(digit_hex (b / 16) (by omega)).2.1, (digit_hex (b % 16) (by omega)).2.1]
  omega

theorem bytesF_lt : ∀ (f n : Nat), ∀ b ∈ bytesF f n, b < 256
  | 0, n, b, hb => by
    simp [bytesF] at hb; omega
  | f + 1, n, b, hb => by
    unfold bytesF at hb
    split at hb
    · simp at hb; omega
    · rcases List.mem_append.mp hb with h | h
      · exact bytesF_lt f _ b h
      · simp at h; omega

theorem bytesF_ne (f n : Nat) : bytesF f n ≠ [] := by
  cases f with
  | zero => simp [bytesF]
  | succ f => unfold bytesF; split <;> simp

theorem hexVal_bytesF : ∀ (f n : Nat), n ≤ f →
    hexVal ((bytesF f n).flatMap fun b => [digit (b / 16), digit (b % 16)]) = n
  | 0, n, h => by
    have : n = 0 := by omega
    subst this; decide
  | f + 1, n, h => by
    unfold bytesF
    by_cases hn : n < 256
    · rw [if_pos hn]
      have := foldl_append_val 0 [] n hn
      simpa [hexVal] using this
    · rw [if_neg hn, List.flatMap_append]
      have ih := hexVal_bytesF f (n / 256) (by omega)
      unfold hexVal at ih ⊢
      have := foldl_append_val 0 ((bytesF f (n / 256)).flatMap fun b => [digit (b / 16), digit (b % 16)])
        (n % 256) (by omega)
      rw [ih] at this
      simp only [List.flatMap_cons, List.flatMap_nil, List.append_nil]
      rw [this]; omega

theorem hexVal_hexText (n : Nat) : hexVal (hexText n) = n := hexVal_bytesF n n (Nat.le_refl _)

theorem mem_hexText {n c : Nat} (h : c ∈ hexText n) : isHex c = true ∧ c ≠ 10 ∧ c ≠ 45 := by
  unfold hexText at h
  obtain ⟨b, hb, hc⟩ := List.mem_flatMap.mp h
  have := bytesF_lt _ _ b hb
  have h1 := digit_hex (b / 16) (by omega)
  have h2 := digit_hex (b % 16) (by omega)
  simp at hc
  rcases hc with rfl | rfl
  · exact ⟨h1.1, h1.2.2⟩
  · exact ⟨h2.1, h2.2.2⟩

theorem length_flat (t : List Nat) :
    (t.flatMap fun b => [digit (b / 16), digit (b % 16)]).length = 2 * t.length := by
  induction t with
  | nil => rfl
  | cons b t ih => simp [ih]; omega

theorem hexText_length (n : Nat) : 2 ≤ (hexText n).length ∧ (hexText n).length % 2 = 0 := by
  unfold hexText
  rw [length_flat]
  have := List.length_pos_iff.mpr (bytesF_ne n n)
  omega

theorem takeWhile_all {p : Nat → Bool} : ∀ (t : List Nat), (∀ c ∈ t, p c = true) →
    t.takeWhile p = t
  | [], _ => rfl
  | c :: t, h => by
    rw [List.takeWhile_cons, if_pos (h c (by simp)), takeWhile_all t fun x hx => h x (by simp [hx])]

theorem takeWhile_line : ∀ (t : List Nat), (∀ c ∈ t, c ≠ 10) →
    (t ++ [10]).takeWhile (· != 10) = t
  | [], _ => by decide
  | c :: t, h => by
    rw [List.cons_append, List.takeWhile_cons, if_pos (by simpa using h c (by simp)),
      takeWhile_line t fun x hx => h x (by simp [hx])]

/-- What `save_serial` writes, `load_serial` reads. -/
theorem readSerial_serialText (n : Nat) : readSerial (serialText n) = some n := by
  unfold readSerial serialText
  rw [takeWhile_line _ (fun c hc => (mem_hexText hc).2.1),
    takeWhile_all _ (fun c hc => (mem_hexText hc).1)]
  have := hexText_length n
  dsimp only
  rw [if_neg (by omega), hexVal_hexText]

theorem hexVal_strip (t : List Nat) : hexVal (strip t) = hexVal t := by
  induction t with
  | nil => rfl
  | cons c t ih =>
    unfold strip at ih ⊢
    rw [List.dropWhile_cons]
    by_cases hc : c = 48
    · subst hc
      rw [if_pos (by decide), ih]
      rfl
    · rw [if_neg (by simpa using hc)]

theorem strip_hexText {a b : Nat} (h : strip (hexText a) = strip (hexText b)) : a = b := by
  have := congrArg hexVal h
  rwa [hexVal_strip, hexVal_strip, hexVal_hexText, hexVal_hexText] at this

/-! ### Renaming -/

theorem mv_cases {α : Type} (m : Mv) (a b : Gen) (g : Gens α) :
    mv m a b g = none ∨
    (mv m a b g = some (g, .missing) ∧ g.get a = none) ∨
    (mv m a b g = some (g, .error) ∧ g.get a ≠ none) ∨
    ∃ x, g.get a = some x ∧ m = .ok ∧
      mv m a b g = some ((g.set b (some x)).set a none, .ok) := by
  unfold mv
  cases h : g.get a <;> cases m <;> simp

/-- What `rotate_serial` can leave behind, if there was a file in the beginning. -/
theorem rotateSerial_spec (e : Env) (g : Gens (List Nat)) (c : List Nat) (hc : g.cur = some c)
    (r : Gens (List Nat) × Out Bool) (hr : rotateSerial e g = r) :
    (r.1.cur = none ∨ r.1.cur = some c ∨ r.1.cur = g.new ∧ g.new ≠ none) ∧
      (r.2 = .val true → r.1.cur = g.new ∧ g.new ≠ none) ∧ r.2 ≠ .ub := by
  unfold rotateSerial at hr
  rcases mv_cases e.s1 .cur .old g with h | ⟨h, h'⟩ | ⟨h, h'⟩ | ⟨x, h', _, h⟩ <;>
    rw [h] at hr <;> dsimp only at hr
  · subst hr; simp [hc]
  · simp [Gens.get, hc] at h'
  · subst hr; simp [hc]
  · simp [Gens.get, hc] at h'
    subst h'
    rcases mv_cases e.s2 .new .cur ((g.set .old (some c)).set .cur none) with
      h | ⟨h, h'⟩ | ⟨h, h'⟩ | ⟨y, h', _, h⟩ <;> rw [h] at hr <;> dsimp only at hr
    · subst hr; simp [Gens.set]
    · rcases mv_cases e.s3 .old .cur ((g.set .old (some c)).set .cur none) with
        h | ⟨h, h'⟩ | ⟨h, h'⟩ | ⟨y, h', _, h⟩ <;> rw [h] at hr <;> dsimp only at hr <;> subst hr
      · simp [Gens.set]
      · simp [Gens.set]
      · simp [Gens.set]
      · simp [Gens.set, Gens.get] at h' ⊢
        simp [h']
    · rcases mv_cases e.s3 .old .cur ((g.set .old (some c)).set .cur none) with
        h | ⟨h, h'⟩ | ⟨h, h'⟩ | ⟨y, h', _, h⟩ <;> rw [h] at hr <;> dsimp only at hr <;> subst hr
      · simp [Gens.set]
      · simp [Gens.set]
      · simp [Gens.set]
      · simp [Gens.set, Gens.get] at h' ⊢
        simp [h']
    · subst hr
      simp [Gens.get, Gens.set] at h' ⊢
      simp [h']

theorem undoDb_spec (m m' : Mv) (d : Gens Idx) (r : Gens Idx × Out Bool)
    (hr : undoDb m m' d = r) :
    (r.1.cur = none ∨ r.1.cur = d.cur ∨ r.1.cur = d.old) ∧ r.2 ≠ .val true ∧ r.2 ≠ .ub := by
  unfold undoDb at hr
  rcases mv_cases m .cur .new d with h | ⟨h, h'⟩ | ⟨h, h'⟩ | ⟨x, h', _, h⟩ <;>
    rw [h] at hr <;> dsimp only at hr
  · subst hr; simp
  · rcases mv_cases m' .old .cur d with h | ⟨h, h'⟩ | ⟨h, h'⟩ | ⟨x, h', _, h⟩ <;>
      rw [h] at hr <;> dsimp only at hr <;> subst hr <;> simp_all [Gens.get, Gens.set]
  · rcases mv_cases m' .old .cur d with h | ⟨h, h'⟩ | ⟨h, h'⟩ | ⟨x, h', _, h⟩ <;>
      rw [h] at hr <;> dsimp only at hr <;> subst hr <;> simp_all [Gens.get, Gens.set]
  · rcases mv_cases m' .old .cur ((d.set .new (some x)).set .cur none) with
      h | ⟨h, h'⟩ | ⟨h, h'⟩ | ⟨y, h', _, h⟩ <;>
      rw [h] at hr <;> dsimp only at hr <;> subst hr <;> simp_all [Gens.get, Gens.set]

theorem rotateAtt_spec (e : Env) (d : Gens Idx) (a : Gens Att)
    (r : Gens Idx × Gens Att × Out Bool) (hr : rotateAtt e d a = r) :
    (r.1.cur = none ∨ r.1.cur = d.cur ∨ r.1.cur = d.old) ∧
      (r.2.2 = .val true → r.1.cur = d.cur) ∧ r.2.2 ≠ .ub := by
  unfold rotateAtt at hr
  rcases mv_cases e.a1 .cur .old a with h | ⟨h, h'⟩ | ⟨h, h'⟩ | ⟨x, h', _, h⟩ <;>
    rw [h] at hr <;> dsimp only at hr
  · subst hr; simp
  · rcases mv_cases e.a2 .new .cur a with h | ⟨h, h'⟩ | ⟨h, h'⟩ | ⟨x, h', _, h⟩ <;>
      rw [h] at hr <;> dsimp only at hr
    · subst hr; simp
    · cases h3 : mv e.a2' .old .cur a <;> rw [h3] at hr <;> dsimp only at hr <;> subst hr
      · simp
      · have := undoDb_spec e.a2'' e.a2''' d _ rfl
        exact ⟨this.1, fun x => absurd x this.2.1, this.2.2⟩
    · cases h3 : mv e.a2' .old .cur a <;> rw [h3] at hr <;> dsimp only at hr <;> subst hr
      · simp
      · have := undoDb_spec e.a2'' e.a2''' d _ rfl
        exact ⟨this.1, fun x => absurd x this.2.1, this.2.2⟩
    · subst hr; simp
  · subst hr
    have := undoDb_spec e.a1' e.a1'' d _ rfl
    exact ⟨this.1, fun x => absurd x this.2.1, this.2.2⟩
  · rcases mv_cases e.a2 .new .cur ((a.set .old (some x)).set .cur none) with
      h | ⟨h, h'⟩ | ⟨h, h'⟩ | ⟨y, h', _, h⟩ <;>
      rw [h] at hr <;> dsimp only at hr
    · subst hr; simp
    · cases h3 : mv e.a2' .old .cur ((a.set .old (some x)).set .cur none) <;>
        rw [h3] at hr <;> dsimp only at hr <;> subst hr
      · simp
      · have := undoDb_spec e.a2'' e.a2''' d _ rfl
        exact ⟨this.1, fun x => absurd x this.2.1, this.2.2⟩
    · cases h3 : mv e.a2' .old .cur ((a.set .old (some x)).set .cur none) <;>
        rw [h3] at hr <;> dsimp only at hr <;> subst hr
      · simp
      · have := undoDb_spec e.a2'' e.a2''' d _ rfl
        exact ⟨this.1, fun x => absurd x this.2.1, this.2.2⟩
    · subst hr; simp

/-- What `rotate_index` can leave behind, if there was an index in the beginning. -/
theorem rotateIndex_spec (e : Env) (d : Gens Idx) (a : Gens Att) (c : Idx) (hc : d.cur = some c)
    (r : Gens Idx × Gens Att × Out Bool) (hr : rotateIndex e d a = r) :
    (r.1.cur = none ∨ r.1.cur = some c ∨ r.1.cur = d.new ∧ d.new ≠ none) ∧
      (r.2.2 = .val true → r.1.cur = d.new ∧ d.new ≠ none) ∧ r.2.2 ≠ .ub := by
  unfold rotateIndex at hr
  rcases mv_cases e.d1 .cur .old d with h | ⟨h, h'⟩ | ⟨h, h'⟩ | ⟨x, h', _, h⟩ <;>
    rw [h] at hr <;> dsimp only at hr
  · subst hr; simp [hc]
  · simp [Gens.get, hc] at h'
  · subst hr; simp [hc]
  · simp [Gens.get, hc] at h'
    subst h'
    rcases mv_cases e.d2 .new .cur ((d.set .old (some c)).set .cur none) with
      h | ⟨h, h'⟩ | ⟨h, h'⟩ | ⟨y, h', _, h⟩ <;> rw [h] at hr <;> dsimp only at hr
    · subst hr; simp [Gens.set]
    · rcases mv_cases e.d2' .old .cur ((d.set .old (some c)).set .cur none) with
        h | ⟨h, h'⟩ | ⟨h, h'⟩ | ⟨y, h', _, h⟩ <;> rw [h] at hr <;> dsimp only at hr <;> subst hr
      · simp [Gens.set]
      · simp [Gens.set]
      · simp [Gens.set]
      · simp [Gens.set, Gens.get] at h' ⊢
        simp [h']
    · rcases mv_cases e.d2' .old .cur ((d.set .old (some c)).set .cur none) with
        h | ⟨h, h'⟩ | ⟨h, h'⟩ | ⟨y, h', _, h⟩ <;> rw [h] at hr <;> dsimp only at hr <;> subst hr
      · simp [Gens.set]
      · simp [Gens.set]
      · simp [Gens.set]
      · simp [Gens.set, Gens.get] at h' ⊢
        simp [h']
    · have := rotateAtt_spec e _ a r hr
      simp [Gens.get, Gens.set] at h' this ⊢
      rw [h']
      refine ⟨?_, fun ht => ?_, this.2.2⟩
      · rcases this.1 with h1 | h1 | h1
        · exact .inl h1
        · exact .inr (.inr ⟨h1, by simp⟩)
        · exact .inr (.inl h1)
      · exact ⟨this.2.1 ht, by simp⟩

/-! ### Writing -/

theorem saveSerial_spec (e : Env) (n : Nat) (fs : Fs) (r : Fs × Out Bool)
    (hr : saveSerial e n fs = r) :
    r.1.ser.cur = fs.ser.cur ∧ r.1.db = fs.db ∧ r.1.att = fs.att ∧ r.2 ≠ .ub ∧
      (r.2 = .val true → ∃ t, r.1.ser.new = some t ∧
        ((∀ k b h, e.wSer ≠ .cut k b h) → t = serialText n)) := by
  subst hr
  unfold saveSerial
  cases e.wSer with
  | ok => simp
  | noOpen => simp
  | cut k b h => cases h <;> simp

theorem saveIndex_spec (e : Env) (rows : List Row) (u : Bool) (fs : Fs) (r : Fs × Out Bool)
    (hr : saveIndex e rows u fs = r) :
    r.1.ser = fs.ser ∧ r.1.db.cur = fs.db.cur ∧ r.1.att.cur = fs.att.cur ∧ r.2 ≠ .ub ∧
      (r.2 = .val true → (∃ i, r.1.db.new = some i ∧
          ((∀ k b, e.wDb ≠ .cut k b .silent) → i = ⟨rows, false⟩)) ∧
        ∃ a, r.1.att.new = some a ∧ (a.unique = none ∨ a.unique = some u)) := by
  subst hr
  unfold saveIndex
  have key : ∀ fs' : Fs, ∀ q, saveIndex.saveAtt e u fs' = q → q.1.ser = fs'.ser ∧ q.1.db = fs'.db ∧
      q.1.att.cur = fs'.att.cur ∧ q.2 ≠ .ub ∧
      (q.2 = .val true → ∃ a, q.1.att.new = some a ∧ (a.unique = none ∨ a.unique = some u)) := by
    intro fs' q hq
    subst hq
    unfold saveIndex.saveAtt
    cases e.wAtt with
    | ok => simp
    | noOpen => simp
    | cut k b h =>
      cases h <;> by_cases hk : k = 0 <;> simp [hk]
  cases hw : e.wDb with
  | noOpen => simp
  | ok =>
    dsimp only
    obtain ⟨h1, h2, h3, h4, h5⟩ := key (saveIndex.putDb fs ⟨rows, false⟩) _ rfl
    refine ⟨by rw [h1]; rfl, by rw [h2]; rfl, by rw [h3]; rfl, h4, fun ht => ⟨⟨_, by rw [h2]; rfl, ?_⟩, h5 ht⟩⟩
    intro _; rfl
  | cut k b h =>
    cases h with
    | reported => simp [saveIndex.putDb]
    | killed => simp [saveIndex.putDb]
    | silent =>
      dsimp only
      obtain ⟨h1, h2, h3, h4, h5⟩ := key (saveIndex.putDb fs ⟨rows.take k, b⟩) _ rfl
      refine ⟨by rw [h1]; rfl, by rw [h2]; rfl, by rw [h3]; rfl, h4,
        fun ht => ⟨⟨_, by rw [h2]; rfl, ?_⟩, h5 ht⟩⟩
      intro hn
      exact absurd rfl (hn k b)

/-! ### One enrolment -/

theorem insertRow_spec {u : Bool} {rows : List Row} {r : Row} {rows' : List Row}
    (h : insertRow u rows r = some rows') :
    rows' = rows ++ [r] ∧ (∀ x ∈ rows, strip x.serial ≠ strip r.serial) ∧
      (u = true → ∀ x ∈ rows, x.type = 86 → x.name ≠ r.name) := by
  unfold insertRow at h
  split at h
  · cases h
  · split at h
    · cases h
    · rename_i h1 h2
      cases h
      simp at h1 h2
      exact ⟨rfl, h1, h2⟩

/-- The new certificate and the new rows. -/
theorem certify_spec {lib : Lib} {cf : Conf} {e : Env} {csr : Csr} {rows : List Row} {u : Bool}
    {n : Nat} {cert : Cert} {rows' : List Row}
    (h : certify lib cf e csr rows u n = .val (some (cert, rows'))) :
    csr.decodes = true ∧ csr.keyOk = true ∧ 0 < csr.sig ∧ (∀ x ∈ csr.name, entryOk cf x = true) ∧
      subjectOf cf csr.name = some cert.subject ∧ cert.serial = n ∧ cert.issuer = cf.caName ∧
      cert.key = csr.key ∧ cert.exts = copyExts cf.copy cf.exts csr.exts ∧
      insertRow u rows ⟨86, false, true, hexText n, lib.oneline cert.subject⟩ = some rows' := by
  unfold certify at h
  split at h
  · cases h
  · rename_i h1
    split at h
    · cases h
    · rename_i h2
      split at h
      · cases h
      · rename_i subject hs
        split at h
        · cases h
        · split at h
          · cases h
          · split at h
            · cases h
            · dsimp only at h
              split at h
              · cases h
              · rename_i rows2 hi
                cases h
                simp at h1 h2
                exact ⟨h1.1.1, h1.1.2, h1.2, h2, hs, rfl, rfl, rfl, rfl, hi⟩

theorem loadIndex_spec {cf : Conf} {e : Env} {fs : Fs} {rows : List Row} {u : Bool}
    (h : loadIndex cf e fs = some (rows, u)) :
    fs.db.cur = some ⟨rows, false⟩ ∧
      (fs.att.cur = none ∧ u = cf.unique ∨
        ∃ a, fs.att.cur = some a ∧ u = a.unique.getD cf.unique) ∧
      (∀ r ∈ rows, rowOk r = true) ∧ noDupSerial rows = true ∧
      (u = true → noDupName rows = true) := by
  unfold loadIndex at h
  have key : ∀ (rs : List Row) (v : Bool), loadIndex.finish rs v = some (rows, u) →
      rs = rows ∧ v = u ∧ (∀ r ∈ rows, rowOk r = true) ∧ noDupSerial rows = true ∧
      (u = true → noDupName rows = true) := by
    intro rs v hf
    unfold loadIndex.finish at hf
    split at hf
    · rename_i hc
      cases hf
      simp at hc
      refine ⟨rfl, rfl, hc.1.1, hc.1.2, fun hu => ?_⟩
      rcases hc.2 with h | h
      · rw [hu] at h; cases h
      · exact h
    · cases hf
  cases hd : fs.db.cur with
  | none => rw [hd] at h; cases h
  | some idx =>
    rw [hd] at h
    dsimp only at h
    split at h
    · cases h
    · rename_i hb
      simp at hb
      cases ha : fs.att.cur with
      | none =>
        rw [ha] at h
        obtain ⟨h1, h2, h3⟩ := key _ _ h
        refine ⟨?_, .inl ⟨rfl, h2.symm⟩, h3⟩
        rw [← h1, ← hb.2]
      | some a =>
        rw [ha] at h
        dsimp only at h
        split at h
        · cases h
        · obtain ⟨h1, h2, h3⟩ := key _ _ h
          refine ⟨?_, .inr ⟨a, rfl, h2.symm⟩, h3⟩
          rw [← h1, ← hb.2]

/-- What an enrolment does to the two files: they are as before, or gone, or the new ones. -/
theorem enroll_spec (lib : Lib) (cf : Conf) (e : Env) (csr : Csr) (fs fs' : Fs)
    (o : Out (Option Cert)) (h : enroll lib cf e csr fs = (fs', o)) :
    (fs'.ser.cur = fs.ser.cur ∧ fs'.db.cur = fs.db.cur ∧ ∀ cert, o ≠ .val (some cert)) ∨
    ∃ rows u n cert rows', loadIndex cf e fs = some (rows, u) ∧
      fs.ser.cur.bind readSerial = some n ∧ nameFits n = true ∧
      certify lib cf e csr rows u n = .val (some (cert, rows')) ∧
      (∃ t i, ((∀ k b h, e.wSer ≠ .cut k b h) → t = serialText (n + 1)) ∧
        ((∀ k b, e.wDb ≠ .cut k b .silent) → i = ⟨rows', false⟩) ∧
        (fs'.ser.cur = none ∨ fs'.ser.cur = fs.ser.cur ∨ fs'.ser.cur = some t) ∧
        (fs'.db.cur = none ∨ fs'.db.cur = fs.db.cur ∨ fs'.db.cur = some i) ∧
        ∀ cert', o = .val (some cert') → cert' = cert ∧ fs'.ser.cur = some t ∧
          fs'.db.cur = some i) := by
  unfold enroll at h
  split at h
  · cases h; exact .inl ⟨rfl, rfl, by simp⟩
  · split at h
    · rename_i rows u n hl hs
      split at h
      · cases h; exact .inl ⟨rfl, rfl, by simp⟩
      · split at h
        · cases h; exact .inl ⟨rfl, rfl, by simp⟩
        · cases h; exact .inl ⟨rfl, rfl, by simp⟩
        · cases h; exact .inl ⟨rfl, rfl, by simp⟩
        · rename_i cert rows' hcert
          split at h
          · cases h; exact .inl ⟨rfl, rfl, by simp⟩
          · split at h
            · rename_i fs1 hss
              obtain ⟨s1, s2, s3, s4, s5⟩ := saveSerial_spec _ _ _ _ hss
              dsimp only at s1 s2 s3 s4 s5
              obtain ⟨t, st, st'⟩ := s5 rfl
              split at h
              · rename_i fs2 hsi
                obtain ⟨i1, i2, i3, i4, i5⟩ := saveIndex_spec _ _ _ _ _ hsi
                dsimp only at i1 i2 i3 i4 i5
                obtain ⟨⟨i, di, di'⟩, _⟩ := i5 rfl
                have hsc : fs2.ser.cur = fs.ser.cur := by rw [i1, s1]
                have hsn : fs2.ser.new = some t := by rw [i1, st]
                have hdc : fs2.db.cur = fs.db.cur := by rw [i2, s2]
                unfold enroll.publish at h
                split at h
                · cases h; exact .inl ⟨hsc, hdc, by simp⟩
                · rename_i hfit
                  simp at hfit
                  right
                  refine ⟨rows, u, n, cert, rows', hl, hs, hfit, hcert, t, i, st', di', ?_⟩
                  have hdb := (loadIndex_spec hl).1
                  cases hcs : fs.ser.cur with
                  | none => rw [hcs] at hs; cases hs
                  | some c =>
                    rw [hcs] at hsc
                    rw [hdb] at hdc
                    split at h
                    · rename_i g hrs
                      have r1 := rotateSerial_spec e fs2.ser c hsc _ hrs
                      rw [hsn] at r1
                      dsimp only at r1
                      have hg := (r1.2.1 rfl).1
                      split at h
                      all_goals
                        rename_i d a hri
                        have r2 := rotateIndex_spec e fs2.db fs2.att _ hdc _ hri
                        rw [di] at r2
                        dsimp only at r2
                        cases h
                        refine ⟨.inr (.inr hg), ?_, ?_⟩
                        · rw [hdb]
                          rcases r2.1 with x | x | x
                          · exact .inl x
                          · exact .inr (.inl x)
                          · exact .inr (.inr x.1)
                        · intro cert' hc
                          first
                          | (cases hp : e.p7 <;> rw [hp] at hc <;> simp at hc
                             exact ⟨hc.symm, hg, (r2.2.1 rfl).1⟩)
                          | (cases hc; done)
                    all_goals
                      rename_i g hrs
                      have r1 := rotateSerial_spec e fs2.ser c hsc _ hrs
                      rw [hsn] at r1
                      dsimp only at r1
                      cases h
                      refine ⟨?_, .inr (.inl (by rw [hdb]; exact hdc)), by simp⟩
                      rcases r1.1 with x | x | x
                      · exact .inl x
                      · exact .inr (.inl x)
                      · exact .inr (.inr x.1)
              all_goals
                rename_i fs2 hsi
                obtain ⟨i1, i2, _⟩ := saveIndex_spec _ _ _ _ _ hsi
                dsimp only at i1 i2
                cases h
                exact .inl ⟨by rw [i1, s1], by rw [i2, s2], by simp⟩
            all_goals
              rename_i fs1 hss
              obtain ⟨s1, s2, _⟩ := saveSerial_spec _ _ _ _ hss
              dsimp only at s1 s2
              cases h
              exact .inl ⟨s1, by rw [s2], by simp⟩
    · cases h; exact .inl ⟨rfl, rfl, by simp⟩

end Verif.SampleCa
