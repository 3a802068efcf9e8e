import Verif.MultipartModel
import Verif.ClientRespProps

/-!
# C42 and C65: the key generation response
-/
namespace Verif.Multipart
open Verif.HttpHdr (Hdr skip skipWord line lines WellFormed)
open Verif.ClientResp (Ctx Mode response)

/-! ## The parser on a well formed text -/

theorem run_go (b : List Nat) (n : Nat) (m m' : M) (c : Nat) (t : List Nat)
    (h : step b m (n == 0) (c :: t) = .go m') : run b (n + 1) m (c :: t) = run b n m' t := by
  simp [run, h]

/-- Characters of a header name. -/
def NameChar (c : Nat) : Prop := c = 45 ∨ (97 ≤ c ∧ c ≤ 122) ∨ (65 ≤ c ∧ c ≤ 90)

instance (c : Nat) : Decidable (NameChar c) := by unfold NameChar; infer_instance

theorem stepField_char (m : M) (c : Nat) (hc : NameChar c) (ha : m.acc.length ≤ 63) :
    stepField m false c = .go { m with st := .headerField, acc := m.acc ++ [c] } := by
  unfold NameChar at hc
  unfold stepField
  rw [if_neg (by omega), if_neg (by omega), if_neg (by omega), if_neg (by omega)]
  rfl

theorem run_field (b w t : List Nat) (n : Nat) (m : M) (hs : m.skip = 0)
    (hst : m.st = .headerField) (hw : ∀ c ∈ w, NameChar c) (ha : m.acc.length + w.length ≤ 64) :
    run b (w.length + (n + 1)) m (w ++ t) = run b (n + 1) { m with acc := m.acc ++ w } t := by
  induction w generalizing m with
  | nil => simp
  | cons c w ih =>
    simp only [List.length_cons, List.cons_append] at ha ⊢
    have e : w.length + 1 + (n + 1) = (w.length + (n + 1)) + 1 := by omega
    rw [e, run_go b _ m { m with st := .headerField, acc := m.acc ++ [c] }]
    · rw [ih _ (by exact hs) (by rfl) (fun x hx => hw x (by simp [hx])) (by simp; omega)]
      simp [hst]
    · have hl : ((w.length + (n + 1)) == 0) = false := by simp
      rw [hl]
      have := stepField_char m c (hw c (by simp)) (by omega)
      simp only [step, hs, hst, List.headD_cons]
      simpa [hs, hst] using this

theorem stepValue_char (m : M) (c : Nat) (hc : c ≠ 13) :
    stepValue m false c =
      .go { m with st := .headerValue, acc := m.acc ++ [c], seenDelim := false } := by
  unfold stepValue
  rw [if_neg hc]
  rfl

theorem run_value (b w t : List Nat) (n : Nat) (m : M) (hs : m.skip = 0)
    (hst : m.st = .headerValue) (hd : m.seenDelim = false) (hw : ∀ c ∈ w, c ≠ 13) :
    run b (w.length + (n + 1)) m (w ++ t) = run b (n + 1) { m with acc := m.acc ++ w } t := by
  induction w generalizing m with
  | nil => simp
  | cons c w ih =>
    simp only [List.length_cons, List.cons_append]
    have e : w.length + 1 + (n + 1) = (w.length + (n + 1)) + 1 := by omega
    rw [e, run_go b _ m { m with st := .headerValue, acc := m.acc ++ [c], seenDelim := false }]
    · rw [ih _ (by exact hs) (by rfl) (by rfl) (fun x hx => hw x (by simp [hx]))]
      simp [hst, hd]
    · have hl : ((w.length + (n + 1)) == 0) = false := by simp
      rw [hl]
      have := stepValue_char m c (hw c (by simp))
      simp only [step, hs, hst, List.headD_cons]
      simpa [hs, hst] using this

/-- A header line. -/
theorem run_header (b w v t : List Nat) (n : Nat) (m : M) (s1 s2 : Store) (hs : m.skip = 0)
    (hst : m.st = .headerFieldStart) (hw0 : w ≠ []) (hw : ∀ c ∈ w, NameChar c)
    (hwl : w.length ≤ 64) (hv0 : v ≠ []) (hv : ∀ c ∈ v, c ≠ 13) (hv1 : v.head? ≠ some 32)
    (h1 : onName m.store w = some s1) (h2 : onValue s1 v = some s2)
    (ht : (t.head?.getD 0) ≠ 45) :
    run b (w.length + (v.length + (n + 5))) m (w ++ 58 :: 32 :: (v ++ 13 :: 10 :: t)) =
      run b (n + 1) { m with
        st := .headerFieldStart
        acc := v
        seenHeaders := true
        seenDelim := false
        store := s2 } t := by
  cases w with
  | nil => exact absurd rfl hw0
  | cons c w =>
    cases v with
    | nil => exact absurd rfl hv0
    | cons d v =>
      simp only [List.length_cons, List.cons_append] at hwl ⊢
      have e : w.length + 1 + (v.length + 1 + (n + 5)) = (w.length + (v.length + n + 5 + 1)) + 1 := by
        omega
      have q1 := run_go b (w.length + (v.length + n + 5 + 1)) m
        { m with st := .headerField, acc := [c] } c (w ++ 58 :: 32 :: d :: (v ++ 13 :: 10 :: t)) (by
          have hl : ((w.length + (v.length + n + 5 + 1)) == 0) = false := by simp
          rw [hl]
          have := stepField_char { m with acc := [] } c (hw c (by simp)) (by simp)
          simp only [step, hs, hst, List.headD_cons]
          simpa [hs, hst] using this)
      rw [e, q1]
      have q2 := run_field b w (58 :: 32 :: d :: (v ++ 13 :: 10 :: t)) (v.length + n + 5)
        { m with st := .headerField, acc := [c] } (by exact hs) (by rfl) (fun x hx => hw x (by simp [hx]))
        (by simp; omega)
      rw [q2]
      rw [run_go b _ _ { m with
          st := .headerValueStart
          acc := c :: w
          seenHeaders := true
          seenDelim := true
          store := s1 } 58 _ (by simp [step, hs, stepField, h1])]
      have e3 : v.length + n + 5 = v.length + n + 4 + 1 := by omega
      rw [e3, run_go b _ _ { m with
          st := .headerValueStart
          acc := c :: w
          seenHeaders := true
          seenDelim := true
          store := s1 } 32 _ (by simp [step, hs])]
      have e4 : v.length + n + 4 = (v.length + (n + 2 + 1)) + 1 := by omega
      rw [e4, run_go b _ _ { m with
          st := .headerValue
          acc := [d]
          seenHeaders := true
          seenDelim := false
          store := s1 } d _ (by
            have hl : ((v.length + (n + 2 + 1)) == 0) = false := by simp
            rw [hl]
            have := stepValue_char { m with
              st := .headerValueStart
              acc := []
              seenHeaders := true
              seenDelim := true
              store := s1 } d (hv d (by simp))
            have hd : d ≠ 32 := by simpa using hv1
            simp only [step, hs, List.headD_cons, if_neg hd]
            simpa [hs] using this)]
      have q5 := run_value b v (13 :: 10 :: t) (n + 2) { m with
          st := .headerValue
          acc := [d]
          seenHeaders := true
          seenDelim := false
          store := s1 } (by exact hs) (by rfl) (by rfl) (fun x hx => hv x (by simp [hx]))
      rw [q5, run_go b _ _ { m with
          st := .headerValueAlmostDone
          acc := d :: v
          seenHeaders := true
          seenDelim := false
          store := s2 } 13 _ (by simp [step, hs, stepValue, h2])]
      rw [run_go b _ _ { m with
          st := .headerFieldStart
          acc := d :: v
          seenHeaders := true
          seenDelim := false
          store := s2 } 10 _ (by
            have : ((10 :: t)[1]?).getD 0 ≠ 45 := by
              cases t with
              | nil => simp
              | cons x xs => simpa using ht
            simp only [step, hs, List.headD_cons, if_neg this]
            simp)]

theorem run_skip (b : List Nat) (n k : Nat) (m : M) (c : Nat) (t : List Nat) (h : m.skip = k + 1) :
    run b (n + 1) m (c :: t) = run b n { m with skip := k } t := by
  apply run_go
  simp [step, h]

/-- The characters of a boundary are counted. -/
theorem run_boundary_chars (b w t : List Nat) (n : Nat) (m : M) (hs : m.skip = 0)
    (hst : m.st = .startBoundary) (hl : m.idx + w.length = b.length) :
    run b (w.length + n) m (w ++ t) = run b n { m with idx := b.length } t := by
  induction w generalizing m with
  | nil =>
    have : m.idx = b.length := by simpa using hl
    simp [← this]
  | cons c w ih =>
    simp only [List.length_cons, List.cons_append] at hl ⊢
    have e : w.length + 1 + n = (w.length + n) + 1 := by omega
    rw [e, run_go b _ m { m with idx := m.idx + 1 }]
    · rw [ih { m with idx := m.idx + 1 } hs hst (by simp; omega)]
    · have h1 : m.idx ≠ b.length := by omega
      have h2 : m.idx ≠ b.length + 1 := by omega
      simp [step, hs, hst, h1, h2]

/-- A boundary line (without its hyphens). -/
theorem run_boundary (b t : List Nat) (n : Nat) (m : M) (hs : m.skip = 0)
    (hst : m.st = .startBoundary) (hi : m.idx = 0) :
    run b (b.length + (n + 2)) m (b ++ 13 :: 10 :: t) =
      run b n { m with st := .headerFieldStart, seenHeaders := false } t := by
  rw [run_boundary_chars b b _ _ m hs hst (by simp [hi])]
  rw [run_go b (n + 1) _ { m with idx := b.length + 1 } 13 _ (by simp [step, hs, hst])]
  rw [run_go b n _ { m with st := .headerFieldStart, seenHeaders := false } 10 _
    (by simp [step, hs, hst, hi])]

/-- The blank line behind the headers. -/
theorem run_blank (b t : List Nat) (n : Nat) (m : M) (hs : m.skip = 0)
    (hst : m.st = .headerFieldStart) (hh : m.seenHeaders = true) :
    run b (n + 2) m (13 :: 10 :: t) = run b n { m with st := .partDataStart, acc := [] } t := by
  rw [run_go b (n + 1) _ { m with st := .headersAlmostDone, acc := [] } 13 _
    (by simp [step, hs, hst, stepField])]
  rw [run_go b n _ { m with st := .partDataStart, acc := [] } 10 _ (by simp [step, hs, hh])]

theorem stepData_char (m : M) (c c1 c2 : Nat) (h1 : c1 ≠ 45) (h2 : c2 ≠ 45) :
    stepData m false c c1 c2 = .go { m with st := .partData, acc := m.acc ++ [c] } := by
  unfold stepData
  rw [if_neg (by omega)]
  rfl

theorem run_data (b w t : List Nat) (n : Nat) (m : M) (hs : m.skip = 0)
    (hst : m.st = .partData ∨ (m.st = .partDataStart ∧ m.acc = []))
    (hw : ∀ c ∈ w, c ≠ 45) :
    run b (w.length + (n + 1)) m (w ++ 13 :: 10 :: t) =
      run b (n + 1) { m with st := if w = [] then m.st else .partData, acc := m.acc ++ w }
        (13 :: 10 :: t) := by
  induction w generalizing m with
  | nil => simp
  | cons c w ih =>
    simp only [List.length_cons, List.cons_append]
    have e : w.length + 1 + (n + 1) = (w.length + (n + 1)) + 1 := by omega
    rw [e, run_go b _ m { m with st := .partData, acc := m.acc ++ [c] }]
    · rw [ih { m with st := .partData, acc := m.acc ++ [c] } hs (Or.inl rfl)
        (fun x hx => hw x (by simp [hx]))]
      by_cases hw0 : w = [] <;> simp [hw0]
    · have hl : ((w.length + (n + 1)) == 0) = false := by simp
      rw [hl]
      have h1 : ((c :: (w ++ 13 :: 10 :: t))[1]?).getD 0 ≠ 45 := by
        cases w with
        | nil => simp
        | cons x w => simpa using hw x (by simp)
      have h2 : ((c :: (w ++ 13 :: 10 :: t))[2]?).getD 0 ≠ 45 := by
        cases w with
        | nil => simp
        | cons x w =>
          cases w with
          | nil => simp
          | cons y w => simpa using hw y (by simp)
      rcases hst with h | ⟨h, ha⟩
      · have := stepData_char m c _ _ h1 h2
        simp only [step, hs, h, List.headD_cons]
        simpa [hs, h] using this
      · have := stepData_char { m with acc := [] } c _ _ h1 h2
        simp only [step, hs, h, List.headD_cons, ha]
        simpa [hs, h] using this

/-- The headers of a part as the server writes them. -/
theorem run_part_headers (b ct d t : List Nat) (n : Nat) (m : M) (hs : m.skip = 0)
    (hst : m.st = .startBoundary) (hi : m.idx = 0) (hh : m.store.hdrs = [])
    (hct : ct = ctKey ∨ ct = ctCert) (hd0 : d ≠ []) (hd : ∀ c ∈ d, c ≠ 45) :
    run b ((b ++ [13, 10] ++ [67, 111, 110, 116, 101, 110, 116, 45, 84, 121, 112, 101, 58, 32] ++ ct ++ [13, 10] ++
        [67, 111, 110, 116, 101, 110, 116, 45, 84, 114, 97, 110, 115, 102, 101, 114, 45, 69, 110, 99, 111, 100, 105, 110, 103, 58, 32, 98, 97, 115, 101, 54, 52] ++ [13, 10, 13, 10] ++ d).length + (n + 1)) m
      (b ++ [13, 10] ++ [67, 111, 110, 116, 101, 110, 116, 45, 84, 121, 112, 101, 58, 32] ++ ct ++ [13, 10] ++
        [67, 111, 110, 116, 101, 110, 116, 45, 84, 114, 97, 110, 115, 102, 101, 114, 45, 69, 110, 99, 111, 100, 105, 110, 103, 58, 32, 98, 97, 115, 101, 54, 52] ++ [13, 10, 13, 10] ++ d ++ 13 :: 10 :: t) =
      run b (n + 1) { m with
        st := .partData
        acc := d
        seenHeaders := true
        seenDelim := false
        store := { m.store with
          hdrs := [(cteName, cteB64), (ctName, ct)]
          name := cteName } } (13 :: 10 :: t) := by
  have hlen : ct.length = 17 ∨ ct.length = 45 := by
    rcases hct with rfl | rfl
    · left; rfl
    · right; rfl
  have et : (b ++ [13, 10] ++ [67, 111, 110, 116, 101, 110, 116, 45, 84, 121, 112, 101, 58, 32] ++ ct ++ [13, 10] ++
        [67, 111, 110, 116, 101, 110, 116, 45, 84, 114, 97, 110, 115, 102, 101, 114, 45, 69, 110, 99, 111, 100, 105, 110, 103, 58, 32, 98, 97, 115, 101, 54, 52] ++ [13, 10, 13, 10] ++ d ++ 13 :: 10 :: t) =
      b ++ 13 :: 10 :: (ctName ++ 58 :: 32 :: (ct ++ 13 :: 10 ::
        (cteName ++ 58 :: 32 :: (cteB64 ++ 13 :: 10 :: (13 :: 10 :: (d ++ 13 :: 10 :: t)))))) := by
    simp [ctName, cteName, cteB64]
  have el : (b ++ [13, 10] ++ [67, 111, 110, 116, 101, 110, 116, 45, 84, 121, 112, 101, 58, 32] ++ ct ++ [13, 10] ++
        [67, 111, 110, 116, 101, 110, 116, 45, 84, 114, 97, 110, 115, 102, 101, 114, 45, 69, 110, 99, 111, 100, 105, 110, 103, 58, 32, 98, 97, 115, 101, 54, 52] ++ [13, 10, 13, 10] ++ d).length + (n + 1) =
      b.length + ((ctName.length + (ct.length + ((cteName.length + (cteB64.length +
        (((d.length + (n + 1)) + 1) + 5)) - 1) + 5))) + 2) := by
    have h1 : ctName.length = 12 := rfl
    have h2 : cteName.length = 25 := rfl
    have h3 : cteB64.length = 6 := rfl
    simp only [List.length_append, List.length_cons, List.length_nil, h1, h2, h3]
    omega
  rw [et, el, run_boundary b _ _ m hs hst hi]
  have hv : ∀ c ∈ ct, c ≠ 13 := by
    rcases hct with rfl | rfl <;> decide
  have hv0 : ct ≠ [] := by intro h; rw [h] at hlen; simp at hlen
  have hv1 : ct.head? ≠ some 32 := by rcases hct with rfl | rfl <;> decide
  rw [run_header b ctName ct _ _ _ { m.store with name := ctName }
    { m.store with name := ctName, hdrs := [(ctName, ct)] } (by exact hs) (by rfl) (by decide)
    (by decide) (by decide) hv0 hv hv1 (by simp [onName, hh])
    (by rcases hct with rfl | rfl <;> simp [onValue, hh] <;> rfl) (by simp [cteName])]
  have e2 : cteName.length + (cteB64.length + (((d.length + (n + 1)) + 1) + 5)) - 1 + 1 =
      cteName.length + (cteB64.length + (((d.length + (n + 1)) + 1) + 5)) := by
    have h2 : cteName.length = 25 := rfl
    omega
  rw [e2]
  rw [run_header b cteName cteB64 _ _ _ { m.store with name := cteName, hdrs := [(ctName, ct)] }
    { m.store with name := cteName, hdrs := [(cteName, cteB64), (ctName, ct)] } (by exact hs) (by rfl) (by decide)
    (by decide) (by decide) (by decide) (by decide) (by decide) (by simp [onName])
    (by simp [onValue]; rfl) (by simp)]
  rw [run_blank b _ _ _ (by exact hs) (by rfl) (by rfl)]
  rw [run_data b d t n _ (by exact hs) (Or.inr ⟨rfl, rfl⟩) hd]
  simp [hd0]

/-- The end of the first part up to the next boundary. -/
theorem run_part_end (b t : List Nat) (n : Nat) (m : M) (s : Store) (hs : m.skip = 0)
    (hst : m.st = .partData) (hp : m.payloads = 0) (hon : onData m.store m.acc = (s, false)) :
    run b (n + 4) m (13 :: 10 :: 45 :: 45 :: t) =
      run b n { m with
        st := .startBoundary
        payloads := 1
        acc := [13]
        idx := 0
        look := [13, 10]
        store := s } t := by
  rw [run_go b (n + 3) m { m with
    st := .partDataAlmostBoundary
    payloads := 1
    acc := [13]
    look := [13]
    store := s } 13 _ (by simp [step, hs, hst, stepData, hon, hp])]
  rw [run_go b (n + 2) _ { m with
    st := .startBoundary
    payloads := 1
    acc := [13]
    look := [13, 10]
    idx := 0
    skip := 2
    store := s } 10 _ (by simp [step, hs])]
  rw [run_skip b (n + 1) 1 _ 45 _ rfl, run_skip b n 0 _ 45 _ rfl]
  simp [hs]

theorem run_last (b t : List Nat) (n : Nat) (m : M) (s : Store) (hs : m.skip = 0)
    (hst : m.st = .partData) (hon : onData m.store m.acc = (s, true)) :
    run b (n + 1) m (13 :: 10 :: 45 :: t) = .done false s := by
  simp [run, step, hs, hst, stepData, hon]

/-- A text that may be put into a part: not empty, no hyphen, no NUL, not only blanks, at
most 8192 characters. -/
structure PartText (d : List Nat) : Prop where
  nonblank : ∃ c ∈ d, c ≠ 32 ∧ c ≠ 13 ∧ c ≠ 10
  chars : ∀ c ∈ d, c ≠ 45 ∧ c ≠ 0
  len : d.length ≤ 8192

theorem PartText.ne_nil {d : List Nat} (h : PartText d) : d ≠ [] := by
  obtain ⟨c, hc, _⟩ := h.nonblank
  intro e; simp [e] at hc

theorem PartText.not_blank {d : List Nat} (h : PartText d) : blank d = false := by
  obtain ⟨c, hc, hn⟩ := h.nonblank
  unfold blank
  rw [List.all_eq_false]
  exact ⟨c, hc, by simp [hn]⟩

theorem onData_key (d : List Nat) (h : PartText d) :
    onData { hdrs := [(cteName, cteB64), (ctName, ctKey)], name := cteName } d =
      ({ name := cteName, key := d }, false) := by
  have h1 : lookup ctName [(cteName, cteB64), (ctName, ctKey)] = some ctKey := by decide
  have h2 : lookup cteName [(cteName, cteB64), (ctName, ctKey)] = some cteB64 := by decide
  simp only [onData, h1, h2, h.not_blank]
  rw [if_neg (by have := h.len; omega)]
  simp

theorem onData_cert (k d : List Nat) (hk : k ≠ []) (h : PartText d) :
    onData { hdrs := [(cteName, cteB64), (ctName, ctCert)], name := cteName, key := k } d =
      ({ hdrs := [(cteName, cteB64), (ctName, ctCert)], name := cteName, key := k, cert := d },
        true) := by
  have h1 : lookup ctName [(cteName, cteB64), (ctName, ctCert)] = some ctCert := by decide
  have h2 : lookup cteName [(cteName, cteB64), (ctName, ctCert)] = some cteB64 := by decide
  have h3 : ctKey.isPrefixOf ctCert = false := by decide
  simp only [onData, h1, h2, h.not_blank, h3]
  rw [if_neg (by have := h.len; omega)]
  simp [hk]

/-- The parser splits the server's body into key and certificate. -/
theorem execute_body (b key cert after : List Nat) (hb : b.head? ≠ some 45) (hb0 : b ≠ [])
    (hk : PartText key) (hc : PartText cert) :
    execute b (bodyText b key cert).length (bodyText b key cert ++ after) =
      .done false { hdrs := [(cteName, cteB64), (ctName, ctCert)], name := cteName, key := key, cert := cert } := by
  unfold execute
  have e1 : (bodyText b key cert ++ after).dropWhile (· == 45) =
      b ++ [13, 10] ++ [67, 111, 110, 116, 101, 110, 116, 45, 84, 121, 112, 101, 58, 32] ++ ctKey ++ [13, 10] ++
        [67, 111, 110, 116, 101, 110, 116, 45, 84, 114, 97, 110, 115, 102, 101, 114, 45, 69, 110, 99, 111, 100, 105, 110, 103, 58, 32, 98, 97, 115, 101, 54, 52] ++ [13, 10, 13, 10] ++ key ++ 13 :: 10 ::
        (45 :: 45 :: (b ++ [13, 10] ++ [67, 111, 110, 116, 101, 110, 116, 45, 84, 121, 112, 101, 58, 32] ++ ctCert ++ [13, 10] ++
        [67, 111, 110, 116, 101, 110, 116, 45, 84, 114, 97, 110, 115, 102, 101, 114, 45, 69, 110, 99, 111, 100, 105, 110, 103, 58, 32, 98, 97, 115, 101, 54, 52] ++ [13, 10, 13, 10] ++ cert ++ 13 :: 10 ::
        (45 :: 45 :: (b ++ [45, 45] ++ [13, 10, 13, 10] ++ after)))) := by
    cases b with
    | nil => exact absurd rfl hb0
    | cons x b =>
      have hx : x ≠ 45 := by simpa using hb
      simp [bodyText, partHdr, hx]
  have e2 : (bodyText b key cert).length =
      (b ++ [13, 10] ++ [67, 111, 110, 116, 101, 110, 116, 45, 84, 121, 112, 101, 58, 32] ++ ctKey ++ [13, 10] ++
        [67, 111, 110, 116, 101, 110, 116, 45, 84, 114, 97, 110, 115, 102, 101, 114, 45, 69, 110, 99, 111, 100, 105, 110, 103, 58, 32, 98, 97, 115, 101, 54, 52] ++ [13, 10, 13, 10] ++ key).length +
      (((((b ++ [13, 10] ++ [67, 111, 110, 116, 101, 110, 116, 45, 84, 121, 112, 101, 58, 32] ++ ctCert ++ [13, 10] ++
        [67, 111, 110, 116, 101, 110, 116, 45, 84, 114, 97, 110, 115, 102, 101, 114, 45, 69, 110, 99, 111, 100, 105, 110, 103, 58, 32, 98, 97, 115, 101, 54, 52] ++ [13, 10, 13, 10] ++ cert).length +
        ((b.length + 11) + 1)) + 3)) + 1) := by
    simp only [bodyText, partHdr, List.length_append, List.length_cons, List.length_nil]
    omega
  rw [e1, e2, run_part_headers b ctKey key _ _ {} rfl rfl rfl rfl (Or.inl rfl) hk.ne_nil
    (fun c hc => (hk.chars c hc).1)]
  rw [run_part_end b _ _ _ { name := cteName, key := key } rfl rfl rfl (onData_key key hk)]
  rw [run_part_headers b ctCert cert _ _ _ rfl rfl rfl rfl (Or.inr rfl) hc.ne_nil
    (fun c h => (hc.chars c h).1)]
  rw [run_last b _ _ _ _ rfl rfl (onData_cert key cert hk.ne_nil hc)]

/-! ## The HTTP headers -/

open Verif.ClientResp in
theorem kg_step (e : Option Nat) (n : Nat) (h : Hdr) (hw : WellFormed h) (k : Nat) (t : List Nat) :
    kgHdrs e (n + 1) (line h k ++ t) =
      let r := t.dropWhile (fun c => [13, 10].contains c)
      if past e r then ([h], r) else (h :: (kgHdrs e n r).1, (kgHdrs e n r).2) := by
  have h0 : (line h k ++ t).dropWhile (· == 10) = line h k ++ t := by
    cases hn : h.name with
    | nil => exact absurd hn hw.nonempty
    | cons c w =>
      have hc : c ≠ 10 := (hw.name c (by rw [hn]; simp)).2.2
      simp [line, hn, hc]
  have h1 : skipWord [58] [32] (line h k ++ t) = (h.name, h.value ++ 13 :: 10 :: t) := by
    have : line h k ++ t = h.name ++ 58 :: (List.replicate k 32 ++ (h.value ++ 13 :: 10 :: t)) := by
      simp [line]
    rw [this, Verif.HttpHdr.skipWord_append [58] [32] _ _ 58 (fun c hc => by
      have := hw.name c hc; simp; exact this.1) (by simp), Verif.HttpHdr.dropWhile_replicate,
      Verif.HttpHdr.dropWhile_none]
    intro c hc
    cases hv : h.value with
    | nil => rw [hv] at hc; simp at hc; subst hc; simp
    | cons x xs =>
      rw [hv] at hc; simp at hc; subst hc
      have := hw.start
      rw [hv] at this
      simpa using this
  have h2 : skip [13, 10] (h.value ++ 13 :: 10 :: t) =
      (h.value, t.dropWhile (fun c => [13, 10].contains c)) := by
    unfold skip
    rw [Verif.HttpHdr.skipWord_append [13, 10] [13, 10] _ _ 13 (fun c hc => by
      have := hw.value c hc; simp; exact this) (by simp)]
    congr 1
  simp only [kgHdrs, h0, h1, h2, hw.nonempty, false_or]

open Verif.ClientResp in
theorem kg_lines (n : Nat) (hs : List (Hdr × Nat)) (hw : ∀ p ∈ hs, WellFormed p.1)
    (hne : hs ≠ []) (hn : hs.length ≤ n) (b : List Nat)
    (hb : b.head? ≠ some 13 ∧ b.head? ≠ some 10) :
    kgHdrs (some (4 + b.length)) n (lines hs (13 :: 10 :: b)) = (hs.map (·.1), b) := by
  induction hs generalizing n with
  | nil => exact absurd rfl hne
  | cons p hs ih =>
    obtain ⟨h, k⟩ := p
    cases n with
    | zero => simp at hn
    | succ n =>
      simp only [lines]
      rw [kg_step _ _ h (hw (h, k) (by simp))]
      by_cases he : hs = []
      · subst he
        have : (13 :: 10 :: b).dropWhile (fun c => [13, 10].contains c) = b := by
          have := dropWhile_crlf b hb
          simpa using this
        simp only [lines, this, past]
        simp
      · have hd := dropWhile_crlf (lines hs (13 :: 10 :: b))
          (lines_head hs (fun p hp => hw p (by simp [hp])) he _)
        simp only [hd]
        have hl : ¬ (lines hs (13 :: 10 :: b)).length < 4 + b.length := by
          cases hs with
          | nil => exact absurd rfl he
          | cons q hs =>
            obtain ⟨h', k'⟩ := q
            have := line_length h' (hw (h', k') (by simp)) k'
            have hrest : ∀ hs : List (Hdr × Nat), 2 + b.length ≤ (lines hs (13 :: 10 :: b)).length := by
              intro hs
              induction hs with
              | nil => simp [lines]; omega
              | cons q hs ih => simp [lines]; omega
            have := hrest hs
            simp [lines]; omega
        simp only [past, hl]
        rw [ih n (fun p hp => hw p (by simp [hp])) he (by simpa using hn)]
        simp

open Verif.ClientResp in
theorem kg_response {status : List Nat} {hs : List (Hdr × Nat)} {b : List Nat}
    (g : Good status hs b) :
    kgHdrs (findDelim (response status hs b)) 16 (skip [13, 10] (response status hs b)).2 =
      (hs.map (·.1), b) := by
  have hd : findDelim (status ++ 13 :: 10 :: lines hs (13 :: 10 :: b)) = some (4 + b.length) := by
    rw [findDelim_skip _ _ (fun c hc => (g.st c hc).1),
      findDelim_crlf _ (lines_head hs g.wf g.ne _).1, findDelim_lines hs g.wf g.ne]
  have hsk : (skip [13, 10] (status ++ 13 :: 10 :: lines hs (13 :: 10 :: b))).2 =
      lines hs (13 :: 10 :: b) := by
    unfold skip
    rw [Verif.HttpHdr.skipWord_append [13, 10] [13, 10] _ _ 13 (fun c hc => by
      have := g.st c hc; simp; exact ⟨this.1, this.2.1⟩) (by simp)]
    have := dropWhile_crlf _ (lines_head hs g.wf g.ne (13 :: 10 :: b))
    simpa using this
  unfold response
  rw [hd, hsk, kg_lines 16 hs g.wf g.ne g.few b g.body]

theorem strstr_none (p t : List Nat) (hp : p ≠ []) (h : ¬ p <:+: t) : strstr p t = none := by
  induction t with
  | nil => simp [strstr, hp]
  | cons c t ih =>
    have h1 : ¬ p.isPrefixOf (c :: t) = true := by
      intro q
      rw [List.isPrefixOf_iff_prefix] at q
      exact h q.isInfix
    have h2 : ¬ p <:+: t := fun q => h (q.trans (List.suffix_cons c t).isInfix)
    simp only [strstr, ih h2]
    rw [if_neg h1]; rfl

/-- The characters RFC 2046 allows in a boundary. -/
def bchars : List Nat :=
  [39, 40, 41, 43, 95, 44, 45, 46, 47, 58, 61, 63, 32, 48, 49, 50, 51, 52, 53, 54, 55, 56, 57, 65, 66, 67, 68, 69, 70, 71, 72, 73, 74, 75, 76, 77, 78, 79, 80, 81, 82, 83, 84, 85, 86, 87, 88, 89, 90, 97, 98, 99, 100, 101, 102, 103, 104, 105, 106, 107, 108, 109, 110, 111, 112, 113, 114, 115, 116, 117, 118, 119, 120, 121, 122]

/-- A boundary: 1 to 69 characters, not beginning with a hyphen and not ending with a
blank. -/
structure Boundary (b : List Nat) : Prop where
  ne : b ≠ []
  len : b.length ≤ 69
  chars : ∀ c ∈ b, c ∈ bchars
  start : b.head? ≠ some 45
  stop : b.getLast? ≠ some 32

theorem bchar_valid : ∀ c ∈ bchars,
    validChar c = true ∧ c ≠ 34 ∧ c ≠ 59 ∧ c ≠ 0 ∧ c ≠ 13 ∧ c ≠ 10 := by
  decide

theorem stripBlanks_id (t : List Nat) (h : t.getLast? ≠ some 32) : stripBlanks t = t := by
  unfold stripBlanks
  have : t.reverse.dropWhile (· == 32) = t.reverse := by
    cases ht : t.reverse with
    | nil => rfl
    | cons c r =>
      have hc : c ≠ 32 := by
        rintro rfl
        apply h
        rw [List.getLast?_eq_head?_reverse, ht]; rfl
      simp [hc]
  rw [this, List.reverse_reverse]

theorem sanitize_id (b : List Nat) (h : Boundary b) : sanitize (b.take 72) = b := by
  rw [List.take_of_length_le (by have := h.len; omega)]
  unfold sanitize
  have h1 : b.takeWhile (· != 59) = b := by
    have := List.takeWhile_append_of_pos (p := (· != 59)) (l₁ := b) (l₂ := []) (by
      intro c hc
      have := (bchar_valid c (h.chars c hc)).2.2.1
      simpa using this)
    simpa using this
  simp only [h1, stripBlanks_id b h.stop]
  rw [if_neg]
  rintro ⟨q, _⟩
  cases b with
  | nil => simp at q
  | cons c b =>
    have hc : c = 34 := by simpa using q
    exact (bchar_valid c (h.chars c (by simp))).2.1 hc

/-- The Content-Type that announces the boundary. -/
def mixedValue (b : List Nat) : List Nat := [109, 117, 108, 116, 105, 112, 97, 114, 116, 47, 109, 105, 120, 101, 100, 59, 32, 98, 111, 117, 110, 100, 97, 114, 121, 61] ++ b

theorem boundaryOf_mixed (b : List Nat) (h : Boundary b) :
    boundaryOf (mixedValue b) = .ok (some b) := by
  have e1 : strstr [109, 117, 108, 116, 105, 112, 97, 114, 116] (mixedValue b) = some 0 := by
    simp [mixedValue, strstr, List.isPrefixOf]
  have e2 : strstr [109, 117, 108, 116, 105, 112, 97, 114, 116, 47, 109, 105, 120, 101, 100] (mixedValue b) = some 0 := by
    simp [mixedValue, strstr, List.isPrefixOf]
  have e3 : strstr [98, 111, 117, 110, 100, 97, 114, 121, 61] (mixedValue b) = some 17 := by
    simp [mixedValue, strstr, List.isPrefixOf]
  have e4 : (mixedValue b).drop (17 + 9) = b := by simp [mixedValue]
  simp only [boundaryOf, e1, e2, e3, e4, sanitize_id b h]
  rw [if_neg]
  simp only [not_or, Nat.not_lt, Bool.not_eq_true, Bool.not_eq_false', List.all_eq_true]
  exact ⟨by have := h.len; omega, h.ne, fun c hc => (bchar_valid c (h.chars c hc)).1⟩

theorem boundaries_other (hs : List Hdr) (r : Option (List Nat)) (k : List Hdr)
    (h : ∀ x ∈ hs, ¬ [109, 117, 108, 116, 105, 112, 97, 114, 116] <:+: x.value) : boundaries (hs ++ k) r = boundaries k r := by
  induction hs with
  | nil => rfl
  | cons x hs ih =>
    have : boundaryOf x.value = .ok none := by
      simp only [boundaryOf, strstr_none _ _ (by decide) (h x (by simp))]
    simp only [List.cons_append, boundaries, this]
    exact ih (fun y hy => h y (by simp [hy]))

theorem strstr_body (b r : List Nat) (h : Boundary b) :
    strstr b (45 :: 45 :: (b ++ r)) = some 2 := by
  have hn : ∀ t, b.isPrefixOf (45 :: t) = false := by
    intro t
    cases b with
    | nil => exact absurd rfl h.ne
    | cons c b =>
      have hc : c ≠ 45 := by simpa using h.start
      simp [List.isPrefixOf, hc]
  have hy : strstr b (b ++ r) = some 0 := by
    cases b with
    | nil => exact absurd rfl h.ne
    | cons c b =>
      have : (c :: b).isPrefixOf (c :: b ++ r) = true := by
        rw [List.isPrefixOf_iff_prefix]; exact List.prefix_append _ _
      simp only [List.cons_append] at this ⊢
      simp only [strstr, this, if_true]
  rw [strstr, hn]
  simp only [Bool.false_eq_true, if_false]
  rw [strstr, hn, hy]
  rfl

theorem body_noNul (b key cert : List Nat) (hb : Boundary b) (hk : PartText key)
    (hc : PartText cert) : ∀ c ∈ bodyText b key cert, c ≠ 0 := by
  have h1 : ∀ c ∈ ctKey, c ≠ 0 := by decide
  have h2 : ∀ c ∈ ctCert, c ≠ 0 := by decide
  have h3 : ∀ c ∈ b, c ≠ 0 := fun c h => (bchar_valid c (hb.chars c h)).2.2.2.1
  have h4 : ∀ c ∈ key, c ≠ 0 := fun c h => (hk.chars c h).2
  have h5 : ∀ c ∈ cert, c ≠ 0 := fun c h => (hc.chars c h).2
  simp only [bodyText, partHdr, List.forall_mem_append]
  repeat' apply And.intro
  all_goals first
    | exact h1 | exact h2 | exact h3 | exact h4 | exact h5 | decide

/-- A complete key generation response in general: the headers announce the boundary `b`, the
body is the key part and the certificate part. -/
theorem getKeygen_good (tok) (ctx : Ctx) (status : List Nat) (hs : List (Hdr × Nat))
    (b key cert : List Nat) (hst : ∀ c ∈ status, c ≠ 13 ∧ c ≠ 10 ∧ c ≠ 0)
    (h200 : ClientResp.statusCode status = some 200) (hl : 12 ≤ status.length)
    (hw : ∀ p ∈ hs, WellFormed p.1) (hnul : ClientResp.NoNul hs) (hne : hs ≠ [])
    (hfew : hs.length ≤ 16) (hbs : boundaries (hs.map (·.1)) none = .ok (some b))
    (hb : Boundary b) (hk : PartText key) (hc : PartText cert) :
    getKeygen tok ctx (response status hs (bodyText b key cert)) =
      if key.length < 256 ∨ cert.length < 128 then .res .zeroLengthBuf ctx.mode ctx.delay [] []
      else .res .none ctx.mode ctx.delay key cert := by
  obtain ⟨rb, hbt⟩ : ∃ rb, bodyText b key cert = 45 :: 45 :: (b ++ rb) :=
    ⟨(bodyText b key cert).drop (2 + b.length), by
      simp [bodyText, partHdr, show 2 + b.length = b.length + 1 + 1 by omega]⟩
  have g : ClientResp.Good status hs (bodyText b key cert) :=
    ⟨hst, hw, hnul, hne, hfew, by rw [hbt]; simp⟩
  have htw : (bodyText b key cert).takeWhile (· != 0) = bodyText b key cert := by
    have := ClientResp.takeWhile_noNul (bodyText b key cert) [] (body_noNul b key cert hb hk hc)
    simpa using this
  obtain ⟨_, _, hs3⟩ := ClientResp.split_response g
  rw [htw] at hs3
  have hn : response status hs (bodyText b key cert) ≠ [] := by unfold response; simp
  have hstat : ClientResp.statusCode (response status hs (bodyText b key cert)) = some 200 :=
    ClientResp.statusCode_append h200 hl
  have hsplit : ∀ con, split b con (bodyText b key cert) [] =
      if key.length < 256 ∨ cert.length < 128 then .err .zeroLengthBuf else .ok key cert := by
    intro con
    have hbef : (before con).length = 2 := by
      unfold before; split <;> rfl
    have h2 : strstr b (bodyText b key cert) = some 2 := by
      rw [hbt]; exact strstr_body b _ hb
    have h3 : (before con ++ bodyText b key cert ++ []).drop 2 = bodyText b key cert := by
      rw [List.append_nil, ← hbef, List.drop_left]
    have hex := execute_body b key cert [] hb.start hb.ne hk hc
    rw [List.append_nil] at hex
    simp only [split, h2, h3, parseParts, htw, hex]
    rw [if_neg (by have := hb.len; omega)]
    simp [hk.ne_nil, hc.ne_nil]
  unfold getKeygen
  rw [if_neg hn]
  simp only [hs3, List.drop_length, kg_response g, hbs, hstat, hsplit, if_true]
  by_cases q : key.length < 256 ∨ cert.length < 128
  · simp only [if_pos q]
  · simp only [if_neg q]

theorem split_general (tok) (ctx : Ctx) (reason : List Nat) (pre post : List (Hdr × Nat))
    (k : Nat) (b key cert : List Nat) (hr : ∀ c ∈ reason, c ≠ 13 ∧ c ≠ 10 ∧ c ≠ 0)
    (hw : ∀ p ∈ pre ++ post, WellFormed p.1) (hnul : ClientResp.NoNul (pre ++ post))
    (hm : ∀ p ∈ pre ++ post, ¬ [109, 117, 108, 116, 105, 112, 97, 114, 116] <:+: p.1.value)
    (hfew : (pre ++ post).length ≤ 15) (hb : Boundary b) (hk : PartText key)
    (hc : PartText cert) :
    getKeygen tok ctx (response ([72, 84, 84, 80, 47, 49, 46, 49, 32, 50, 48, 48] ++ reason)
        (pre ++ (⟨[67, 111, 110, 116, 101, 110, 116, 45, 84, 121, 112, 101], mixedValue b⟩, k) :: post) (bodyText b key cert)) =
      if key.length < 256 ∨ cert.length < 128 then .res .zeroLengthBuf ctx.mode ctx.delay [] []
      else .res .none ctx.mode ctx.delay key cert := by
  have hbw : WellFormed ⟨[67, 111, 110, 116, 101, 110, 116, 45, 84, 121, 112, 101], mixedValue b⟩ := by
    refine ClientResp.wf_of (by decide) (by decide) ?_ (by simp [mixedValue])
    simp only [mixedValue, List.forall_mem_append]
    exact ⟨by decide, fun c h => ⟨(bchar_valid c (hb.chars c h)).2.2.2.2.1,
      (bchar_valid c (hb.chars c h)).2.2.2.2.2⟩⟩
  have hbn : (∀ c ∈ [67, 111, 110, 116, 101, 110, 116, 45, 84, 121, 112, 101], c ≠ 0) ∧ ∀ c ∈ mixedValue b, c ≠ 0 := by
    refine ⟨by decide, ?_⟩
    simp only [mixedValue, List.forall_mem_append]
    exact ⟨by decide, fun c h => (bchar_valid c (hb.chars c h)).2.2.2.1⟩
  rw [getKeygen_good tok ctx _ _ b key cert _ _ _ _ _ _ _ _ hb hk hc]
  · simp only [List.forall_mem_append]
    exact ⟨by decide, hr⟩
  · exact ClientResp.statusCode_append (p := [72, 84, 84, 80, 47, 49, 46, 49, 32, 50, 48, 48]) (by decide) (by decide)
  · simp
  · intro p hp
    simp only [List.mem_append, List.mem_cons] at hp
    rcases hp with hp | rfl | hp
    · exact hw p (by simp [hp])
    · exact hbw
    · exact hw p (by simp [hp])
  · intro p hp
    simp only [List.mem_append, List.mem_cons] at hp
    rcases hp with hp | rfl | hp
    · exact hnul p (by simp [hp])
    · exact hbn
    · exact hnul p (by simp [hp])
  · simp
  · simp only [List.length_append, List.length_cons] at hfew ⊢; omega
  · have e1 : (pre ++ (⟨[67, 111, 110, 116, 101, 110, 116, 45, 84, 121, 112, 101], mixedValue b⟩, k) :: post).map (·.1) =
        pre.map (·.1) ++ ⟨[67, 111, 110, 116, 101, 110, 116, 45, 84, 121, 112, 101], mixedValue b⟩ :: post.map (·.1) := by simp
    rw [e1, boundaries_other]
    · simp only [boundaries, boundaryOf_mixed b hb]
      have := boundaries_other (post.map (·.1)) (some b) [] (by
        intro x hx
        simp only [List.mem_map] at hx
        obtain ⟨p, hp, rfl⟩ := hx
        exact hm p (by simp [hp]))
      rw [List.append_nil] at this
      rw [this]; rfl
    · intro x hx
      simp only [List.mem_map] at hx
      obtain ⟨p, hp, rfl⟩ := hx
      exact hm p (by simp [hp])

/-- C42: a response with any status line 200, any headers of which one announces the boundary,
and the two parts written as the server writes them gives exactly that key and that
certificate.  Partial: a boundary of 70 characters or with a leading hyphen, and keys of less
than 256 or certificates of less than 128 characters are excluded. -/
theorem C42_split_partial (tok) (ctx : Ctx) (reason : List Nat) (pre post : List (Hdr × Nat))
    (k : Nat) (b key cert : List Nat) (hr : ∀ c ∈ reason, c ≠ 13 ∧ c ≠ 10 ∧ c ≠ 0)
    (hw : ∀ p ∈ pre ++ post, WellFormed p.1) (hnul : ClientResp.NoNul (pre ++ post))
    (hm : ∀ p ∈ pre ++ post, ¬ [109, 117, 108, 116, 105, 112, 97, 114, 116] <:+: p.1.value)
    (hfew : (pre ++ post).length ≤ 15) (hb : Boundary b) (hk : PartText key)
    (hc : PartText cert) (hkl : 256 ≤ key.length) (hcl : 128 ≤ cert.length) :
    getKeygen tok ctx (response ([72, 84, 84, 80, 47, 49, 46, 49, 32, 50, 48, 48] ++ reason)
        (pre ++ (⟨[67, 111, 110, 116, 101, 110, 116, 45, 84, 121, 112, 101], mixedValue b⟩, k) :: post) (bodyText b key cert)) =
      .res .none ctx.mode ctx.delay key cert := by
  rw [split_general tok ctx reason pre post k b key cert hr hw hnul hm hfew hb hk hc,
    if_neg (by omega)]

theorem serverBoundary_ok : Boundary serverBoundary :=
  ⟨by decide, by decide, by decide, by decide, by decide⟩

theorem not_infix_of_length {p t : List Nat} (h : t.length < p.length) : ¬ p <:+: t := by
  intro q
  have := q.length_le
  omega

theorem not_infix_of_head {c : Nat} {p t : List Nat} (h : c ∉ t) : ¬ c :: p <:+: t := by
  intro q
  exact h (q.subset (by simp))

theorem server_general (tok) (ctx : Ctx) (key cert : List Nat) (hk : PartText key)
    (hc : PartText cert) :
    getKeygen tok ctx (serverText key cert) =
      if key.length < 256 ∨ cert.length < 128 then .res .zeroLengthBuf ctx.mode ctx.delay [] []
      else .res .none ctx.mode ctx.delay key cert := by
  have hd := ClientResp.decimal_ok (bodyText serverBoundary key cert).length
  have e : serverText key cert = response ([72, 84, 84, 80, 47, 49, 46, 49, 32, 50, 48, 48] ++ [32, 79, 75])
      ([(⟨[83, 116, 97, 116, 117, 115], [50, 48, 48, 32, 79, 75]⟩, 1)] ++ (⟨[67, 111, 110, 116, 101, 110, 116, 45, 84, 121, 112, 101], mixedValue serverBoundary⟩, 1) ::
        [(⟨[67, 111, 110, 116, 101, 110, 116, 45, 76, 101, 110, 103, 116, 104], ClientResp.decimal (bodyText serverBoundary key cert).length⟩, 1)])
      (bodyText serverBoundary key cert) := by
    simp [serverText, headText, response, lines, line, mixedValue]
  have w1 : WellFormed ⟨[83, 116, 97, 116, 117, 115], [50, 48, 48, 32, 79, 75]⟩ :=
    ClientResp.wf_of (by decide) (by decide) (by decide) (by decide)
  have w2 : WellFormed ⟨[67, 111, 110, 116, 101, 110, 116, 45, 76, 101, 110, 103, 116, 104], ClientResp.decimal (bodyText serverBoundary key cert).length⟩ :=
    ClientResp.wf_of (by decide) (by decide) (fun c h => ⟨(hd c h).1, (hd c h).2.1⟩)
      (ClientResp.decimal_head _)
  rw [e]
  apply split_general tok ctx [32, 79, 75] _ _ 1 serverBoundary key cert (by decide) _ _ _ (by simp)
    serverBoundary_ok hk hc
  · intro p hp
    simp only [List.cons_append, List.nil_append, List.mem_cons, List.not_mem_nil, or_false] at hp
    rcases hp with rfl | rfl
    · exact w1
    · exact w2
  · intro p hp
    simp only [List.cons_append, List.nil_append, List.mem_cons, List.not_mem_nil, or_false] at hp
    rcases hp with rfl | rfl
    · exact ⟨by decide, by decide⟩
    · have q : ∀ c ∈ [67, 111, 110, 116, 101, 110, 116, 45, 76, 101, 110, 103, 116, 104], c ≠ 0 := by decide
      exact ⟨q, fun c h => (hd c h).2.2.1⟩
  · intro p hp
    simp only [List.cons_append, List.nil_append, List.mem_cons, List.not_mem_nil, or_false] at hp
    rcases hp with rfl | rfl
    · exact not_infix_of_length (by decide)
    · apply not_infix_of_head
      intro h
      have := ClientResp.decimal_digits _ _ h
      omega

/-- C42: what `est_handle_server_keygen` writes is split by the client into the key and the
certificate it was given. -/
theorem C42_server_response_partial (tok) (ctx : Ctx) (key cert : List Nat) (hk : PartText key)
    (hc : PartText cert) (hkl : 256 ≤ key.length) (hcl : 128 ≤ cert.length) :
    getKeygen tok ctx (serverText key cert) = .res .none ctx.mode ctx.delay key cert := by
  rw [server_general tok ctx key cert hk hc, if_neg (by omega)]

theorem partText_replicate (n c : Nat) (h1 : 1 ≤ n) (h2 : n ≤ 8192)
    (h3 : c ≠ 32 ∧ c ≠ 13 ∧ c ≠ 10 ∧ c ≠ 45 ∧ c ≠ 0) : PartText (List.replicate n c) := by
  refine ⟨⟨c, by rw [List.mem_replicate]; omega, h3.1, h3.2.1, h3.2.2.1⟩, ?_,
    by rw [List.length_replicate]; exact h2⟩
  intro x hx
  rw [List.mem_replicate] at hx
  omega

/-- The hypotheses of the two theorems can be met. -/
example : PartText (List.replicate 400 65) ∧ 256 ≤ (List.replicate 400 65).length ∧
    PartText (List.replicate 1500 66) ∧ 128 ≤ (List.replicate 1500 66).length ∧
    Boundary [103, 99, 48, 112, 74, 113, 48, 77, 58, 48, 56, 106, 85, 53, 51, 52, 99, 48, 112] :=
  ⟨partText_replicate _ _ (by decide) (by decide) (by decide),
    by rw [List.length_replicate]; decide,
    partText_replicate _ _ (by decide) (by decide) (by decide),
    by rw [List.length_replicate]; decide,
    ⟨by decide, by decide, by decide, by decide, by decide⟩⟩

example : getKeygen (fun _ => true) ⟨.none, 0⟩
    (serverText (List.replicate 256 65) (List.replicate 128 66)) =
    .res .none .none 0 (List.replicate 256 65) (List.replicate 128 66) := by
  decide +kernel

/-- C42 is false of the code for short keys: the PKCS #8 encoding of a P-256 key has 138 bytes,
its base64 text 184 characters, and the client refuses what its own server has sent. -/
theorem C42_short_key_false (tok) (ctx : Ctx) :
    getKeygen tok ctx (serverText (List.replicate 184 65) (List.replicate 1500 66)) =
      .res .zeroLengthBuf ctx.mode ctx.delay [] [] := by
  rw [server_general tok ctx _ _ (partText_replicate _ _ (by decide) (by decide) (by decide))
    (partText_replicate _ _ (by decide) (by decide) (by decide)), if_pos]
  left
  rw [List.length_replicate]; decide

/-- A response with the boundary `b`. -/
def respText (b key cert : List Nat) : List Nat :=
  headText b (bodyText b key cert).length ++ bodyText b key cert

/-- C42 is false of the code for boundaries that begin with a hyphen, as many programs write
them: the hyphens of the boundary are stepped over together with the two in front of it. -/
theorem C42_leading_hyphen_false :
    (∀ c ∈ [45, 45, 98, 49], c ∈ bchars) ∧
    getKeygen (fun _ => true) ⟨.none, 0⟩
      (respText [45, 45, 98, 49] (List.replicate 256 65) (List.replicate 128 66)) =
      .res .multipartParse .none 0 [] [] := by
  decide +kernel

/-! ## C65: responses of any form -/

/-- C65 is false of the code: if the announced boundary does not occur in the body, two is
subtracted from a NULL pointer, which is then read. -/
theorem C65_missing_boundary_false :
    getKeygen (fun _ => true) ⟨.none, 0⟩ (headText [98, 49] 3 ++ [97, 98, 99]) = .ub := by
  decide +kernel

/-- C65 is false of the code: a boundary of 70 characters, which RFC 2046 allows and the length
check accepts, does not fit with its NUL into the 70 bytes of the parser. -/
theorem C65_long_boundary_false :
    getKeygen (fun _ => true) ⟨.none, 0⟩
      (respText (List.replicate 70 97) (List.replicate 256 65) (List.replicate 128 66)) = .ub := by
  decide +kernel

/-- C65 is false of the code: the 17th header of a part is written behind the array of 16. -/
theorem C65_many_headers_false :
    getKeygen (fun _ => true) ⟨.none, 0⟩
      (headText [98, 49] 600 ++ [45, 45, 98, 49] ++ [13, 10] ++
        (List.replicate 17 ([67, 111, 110, 116, 101, 110, 116, 45, 84, 121, 112, 101, 58, 32, 97, 112, 112, 108, 105, 99, 97, 116, 105, 111, 110, 47, 112, 107, 99, 115, 56] ++ [13, 10])).flatten) = .ub := by
  decide +kernel

/-- C65 is false of the code: a header value that is too short is compared beyond its end, where
nothing was written. -/
theorem C65_short_value_false :
    getKeygen (fun _ => true) ⟨.none, 0⟩
      (headText [98, 49] 600 ++ [45, 45, 98, 49] ++ [13, 10] ++ [67, 111, 110, 116, 101, 110, 116, 45, 84, 121, 112, 101, 58, 32, 97, 112, 112] ++ [13, 10]) = .ub := by
  decide +kernel

/-- C65 is false of the code: with a boundary of 68 or 69 characters and two parts of the same
kind, the copy of the boundary leaves the array `lookbehind`. -/
theorem C65_lookbehind_false :
    getKeygen (fun _ => true) ⟨.none, 0⟩
      (headText (List.replicate 69 97) 600 ++ partHdr (List.replicate 69 97) ctKey ++ [65, 13, 10] ++
        partHdr (List.replicate 69 97) ctKey ++ [65, 13, 10] ++
        partHdr (List.replicate 69 97) ctKey) = .ub := by
  decide +kernel

/-! ### What is taken comes from the received text -/

/-- `d` is a piece of the text `t` of at most 8192 characters. -/
def Piece (d t : List Nat) : Prop := d <:+: t ∧ d.length ≤ 8192

theorem Piece.mono {d t u : List Nat} (h : Piece d t) (q : t <:+: u) : Piece d u :=
  ⟨h.1.trans q, h.2⟩

theorem piece_nil (t : List Nat) : Piece [] t := ⟨List.nil_infix, by simp⟩

def StoreOk (s : Store) (t : List Nat) : Prop := Piece s.key t ∧ Piece s.cert t

theorem StoreOk.mono {s : Store} {t u : List Nat} (h : StoreOk s t) (q : t <:+: u) : StoreOk s u :=
  ⟨h.1.mono q, h.2.mono q⟩

/-- No part data can be stored in this state. -/
def Closed (s : Store) : Prop := lookup ctName s.hdrs = none ∨ lookup cteName s.hdrs = none

theorem onData_closed (s : Store) (d : List Nat) (h : Closed s) : onData s d = (s, false) := by
  unfold onData
  rcases h with h | h
  · simp only [h]
  · simp only [h]
    cases lookup ctName s.hdrs <;> rfl

theorem onData_ok (s : Store) (d t : List Nat) (hs : StoreOk s t) (hd : d <:+: t) :
    StoreOk (onData s d).1 t ∧ ((onData s d).2 = false → Closed (onData s d).1) := by
  unfold onData
  cases h1 : lookup ctName s.hdrs with
  | none => exact ⟨hs, fun _ => Or.inl h1⟩
  | some ct =>
    cases h2 : lookup cteName s.hdrs with
    | none => exact ⟨hs, fun _ => Or.inr h2⟩
    | some cte =>
      simp only
      by_cases hl : 8192 < d.length
      · rw [if_pos hl]; exact ⟨hs, by simp⟩
      · rw [if_neg hl]
        have hp : Piece d t := ⟨hd, by omega⟩
        by_cases hk : ctKey.isPrefixOf ct = true
        · rw [if_pos hk]
          by_cases hb : blank d = true
          · rw [if_pos hb]; exact ⟨hs, by simp⟩
          · rw [if_neg hb]
            by_cases hc : s.cert ≠ []
            · rw [if_pos hc]; exact ⟨⟨hp, hs.2⟩, by simp⟩
            · rw [if_neg hc]; exact ⟨⟨hp, hs.2⟩, fun _ => Or.inl rfl⟩
        · rw [if_neg hk]
          by_cases hb : blank d = true
          · rw [if_pos hb]; exact ⟨hs, by simp⟩
          · rw [if_neg hb]
            by_cases hc : s.key ≠ []
            · rw [if_pos hc]; exact ⟨⟨hs.1, hp⟩, by simp⟩
            · rw [if_neg hc]; exact ⟨⟨hs.1, hp⟩, fun _ => Or.inl rfl⟩

theorem onData_cr (s : Store) : (onData s [13]).1 = s := by
  unfold onData
  split
  · have h1 : ¬ 8192 < [13].length := by decide
    have h2 : blank [13] = true := by decide
    rw [if_neg h1]
    split <;> rfl
  · rfl

theorem onName_ok {s s' : Store} {n : List Nat} (h : onName s n = some s') :
    s'.key = s.key ∧ s'.cert = s.cert := by
  unfold onName at h
  split at h
  · cases h; exact ⟨rfl, rfl⟩
  · cases h

theorem onValue_ok {s s' : Store} {v : List Nat} (h : onValue s v = some s') :
    s'.key = s.key ∧ s'.cert = s.cert := by
  unfold onValue at h
  repeat' split at h
  all_goals first
    | cases h; exact ⟨rfl, rfl⟩
    | cases h

/-- What holds between two turns of the loop; `u` is the text read so far. -/
structure Inv (u : List Nat) (m : M) : Prop where
  store : StoreOk m.store u
  acc : m.st = .partData → m.skip = 0 ∧ m.acc <:+ u
  closed : m.st = .partDataBoundary → Closed m.store
  closed' : m.st = .partDataAlmostBoundary → Closed m.store

/-- What holds of the result of a turn. -/
def StepOk (u : List Nat) : Step → Prop
  | .ub => True
  | .stop s => StoreOk s u
  | .go m => Inv u m

theorem storeOk_of {s s' : Store} {t : List Nat} (h : StoreOk s t)
    (q : s'.key = s.key ∧ s'.cert = s.cert) : StoreOk s' t := by
  unfold StoreOk at *
  rw [q.1, q.2]; exact h

theorem stepField_ok (m : M) (last : Bool) (c : Nat) (u : List Nat) (h : StoreOk m.store u) :
    StepOk u (stepField m last c) := by
  unfold stepField
  repeat' split
  all_goals first
    | trivial
    | exact h
    | (rename_i q; exact ⟨storeOk_of h (onName_ok q), by simp, by simp, by simp⟩)
    | exact ⟨h, by simp, by simp, by simp⟩

theorem stepValue_ok (m : M) (last : Bool) (c : Nat) (u : List Nat) (h : StoreOk m.store u) :
    StepOk u (stepValue m last c) := by
  unfold stepValue
  repeat' split
  all_goals first
    | trivial
    | exact h
    | (rename_i q; exact ⟨storeOk_of h (onValue_ok q), by simp, by simp, by simp⟩)
    | exact ⟨h, by simp, by simp, by simp⟩

theorem stepData_ok (m : M) (last : Bool) (c c1 c2 : Nat) (u : List Nat)
    (h : StoreOk m.store (u ++ [c])) (h0 : m.skip = 0) (ha : m.acc <:+ u) :
    StepOk (u ++ [c]) (stepData m last c c1 c2) := by
  have hi : m.acc <:+: u ++ [c] := ha.isInfix.trans (List.prefix_append u [c]).isInfix
  have hs : m.acc ++ [c] <:+ u ++ [c] := by
    obtain ⟨p, rfl⟩ := ha
    exact ⟨p, by simp⟩
  unfold stepData
  simp only
  by_cases q : c = 13 ∧ (c1 = 45 ∨ c2 = 45)
  · rw [if_pos q]
    have o := onData_ok m.store m.acc _ h hi
    split
    · exact o.1
    · rename_i hr
      exact ⟨o.1, by simp, by simp, fun _ => o.2 (by simpa using hr)⟩
  · rw [if_neg q]
    split
    · have o := onData_ok m.store (m.acc ++ [c]) _ h hs.isInfix
      split
      · exact o.1
      · exact ⟨o.1, fun _ => ⟨h0, hs⟩, by simp, by simp⟩
    · exact ⟨h, fun _ => ⟨h0, hs⟩, by simp, by simp⟩

theorem step_ok (b : List Nat) (m : M) (last : Bool) (t u : List Nat) (h : Inv u m) :
    StepOk (u ++ [t.headD 0]) (step b m last t) := by
  have hs : StoreOk m.store (u ++ [t.headD 0]) := h.store.mono (List.prefix_append _ _).isInfix
  unfold step
  simp only
  by_cases hk : 0 < m.skip
  · rw [if_pos hk]
    refine ⟨hs, ?_, h.closed, h.closed'⟩
    intro q
    have := (h.acc q).1
    omega
  · rw [if_neg hk]
    have h0 : m.skip = 0 := by omega
    cases hst : m.st <;> simp only
    case startBoundary =>
      repeat' split
      all_goals first
        | exact hs
        | exact ⟨hs, by simp_all, by simp_all, by simp_all⟩
    case headerFieldStart => exact stepField_ok _ _ _ _ hs
    case headerField => exact stepField_ok _ _ _ _ hs
    case headersAlmostDone =>
      split
      · refine ⟨hs, ?_, ?_, ?_⟩ <;> (simp only; split <;> simp)
      · exact hs
    case headerValueStart =>
      split
      · exact ⟨hs, by simp [hst], by simp [hst], by simp [hst]⟩
      · exact stepValue_ok _ _ _ _ hs
    case headerValue => exact stepValue_ok _ _ _ _ hs
    case headerValueAlmostDone =>
      repeat' split
      all_goals first
        | exact hs
        | exact ⟨hs, by simp, by simp, by simp⟩
    case partDataStart =>
      exact stepData_ok { m with acc := [] } last _ _ _ u hs h0 List.nil_suffix
    case partData => exact stepData_ok m last _ _ _ u hs h0 (h.acc hst).2
    case partDataAlmostBoundary =>
      split
      · refine ⟨hs, ?_, fun _ => h.closed' hst, ?_⟩ <;> (simp only; split <;> simp)
      · rw [onData_closed _ _ (h.closed' hst)]
        exact stepData_ok { m with acc := [] } last _ _ _ u hs h0 List.nil_suffix
    case partDataBoundary =>
      unfold stepBoundary
      rw [onData_closed _ _ (h.closed hst)]
      simp only
      split
      · exact stepField_ok { m with acc := [] } _ _ _ hs
      · split
        · trivial
        · refine ⟨hs, ?_, fun _ => h.closed hst, ?_⟩ <;> (simp only; split <;> simp)
    all_goals
      repeat' split
      all_goals first
        | exact hs
        | exact ⟨hs, by simp [hst], by simp [hst], by simp [hst]⟩

theorem run_ok (b : List Nat) (n : Nat) (m : M) (t u : List Nat) (all : Bool) (s : Store)
    (h : Inv u m) (hr : run b n m t = .done all s) :
    StoreOk s (u ++ t ++ List.replicate n 0) := by
  induction n generalizing m t u with
  | zero =>
    simp only [run, Exec.done.injEq] at hr
    rw [← hr.2]
    exact h.store.mono ⟨[], t, by simp⟩
  | succ n ih =>
    have q := step_ok b m (n == 0) t u h
    have e : u ++ [t.headD 0] ++ t.tail ++ List.replicate n 0 <:+: u ++ t ++ List.replicate (n + 1) 0 := by
      cases t with
      | nil => simp [List.replicate_succ]
      | cons c t =>
        simp only [List.headD_cons, List.tail_cons]
        rw [List.replicate_succ']
        exact ⟨[], [0], by simp⟩
    have e0 : u ++ [t.headD 0] <:+: u ++ t ++ List.replicate (n + 1) 0 := by
      refine List.IsInfix.trans ?_ e
      exact ⟨[], t.tail ++ List.replicate n 0, by simp⟩
    simp only [run] at hr
    cases hstep : step b m (n == 0) t with
    | ub => rw [hstep] at hr; cases hr
    | stop s' =>
      rw [hstep] at hr q
      simp only [Exec.done.injEq] at hr
      rw [← hr.2]
      exact StoreOk.mono q e0
    | go m' =>
      rw [hstep] at hr q
      exact (ih m' t.tail (u ++ [t.headD 0]) q hr).mono e

theorem kgHdrs_suffix (e : Option Nat) (n : Nat) (t : List Nat) : (kgHdrs e n t).2 <:+ t := by
  have hsw : ∀ ds ws t, (skipWord ds ws t).2 <:+ t := by
    intro ds ws t
    unfold skipWord
    simp only
    split
    · exact List.nil_suffix
    · rename_i x r hr
      have h1 : x :: r <:+ t := by rw [← hr]; exact List.drop_suffix _ _
      exact (List.dropWhile_suffix _).trans ((List.suffix_cons x r).trans h1)
  induction n generalizing t with
  | zero => exact List.suffix_refl t
  | succ n ih =>
    have h1 : (skip [13, 10] (skipWord [58] [32] (t.dropWhile (· == 10))).2).2 <:+ t :=
      (hsw _ _ _).trans ((hsw _ _ _).trans (List.dropWhile_suffix _))
    simp only [kgHdrs]
    split
    · exact h1
    · exact (ih _).trans h1

theorem reverse_takeWhile (p : Nat → Bool) (l r : List Nat) (h : l.reverse.takeWhile p = r) :
    r.reverse <:+ l := by
  have h1 : r <+: l.reverse := by rw [← h]; exact List.takeWhile_prefix p
  have := List.reverse_suffix.mpr h1
  rwa [List.reverse_reverse] at this

/-- The text handed to the parser starts with a NUL or is a part of what was received. -/
theorem mem_cases (con rest after raw : List Nat) (k : Nat) (h : con ++ rest ++ after = raw) :
    let mem := (before con ++ rest ++ after).drop k
    mem.head? = some 0 ∨ mem <:+ raw := by
  have key : ∀ (x : Nat) (y : List Nat), y <:+ con → (y ++ rest ++ after).drop x <:+ raw := by
    intro x y hy
    obtain ⟨p, rfl⟩ := hy
    refine (List.drop_suffix _ _).trans ⟨p, ?_⟩
    rw [← h]; simp
  have z : ∀ j, (([] : List Nat) ++ rest ++ after).drop j <:+ raw :=
    fun j => key j [] List.nil_suffix
  simp only
  unfold before
  split
  · rename_i c1 c2 c3 r hq
    right
    apply key
    have := reverse_takeWhile _ _ _ hq
    refine List.IsSuffix.trans ?_ this
    exact ⟨r.reverse ++ [c3], by simp⟩
  · rename_i c1 c2 hq
    match k with
    | 0 => left; rfl
    | k + 1 =>
      right
      have := key k [c1] (List.IsSuffix.trans ⟨[c2], by simp⟩ (reverse_takeWhile _ _ _ hq))
      simpa using this
  · match k with
    | 0 => left; rfl
    | 1 => left; rfl
    | k + 2 => right; simpa using z k

/-- C65: whatever is received, a key and a certificate that the client takes from it are pieces
of the received bytes (the memory behind them is zero), the key of 256 to 8192, the certificate
of 128 to 8192 characters.  Partial: this says nothing about responses on which the parser
leaves its arrays, see the theorems above. -/
theorem C65_pieces_of_response_partial (tok) (ctx : Ctx) (raw : List Nat) (e : EstErr) (md : Mode)
    (dl : Nat) (key cert : List Nat) (h : getKeygen tok ctx raw = .res e md dl key cert)
    (hne : key ≠ [] ∨ cert ≠ []) :
    e = .none ∧ (256 ≤ key.length ∧ key.length ≤ 8192) ∧
      (128 ≤ cert.length ∧ cert.length ≤ 8192) ∧
      ∃ z, key <:+: raw ++ List.replicate z 0 ∧ cert <:+: raw ++ List.replicate z 0 := by
  unfold getKeygen at h
  by_cases hr : raw = []
  · rw [if_pos hr] at h
    simp only [KgRes.res.injEq] at h
    obtain ⟨_, _, _, rfl, rfl⟩ := h
    simp at hne
  · rw [if_neg hr] at h
    simp only at h
    have hsuf := kgHdrs_suffix (ClientResp.findDelim (raw.takeWhile (· != 0))) 16
      (skip [13, 10] (raw.takeWhile (· != 0))).2
    have hsuf2 : (skip [13, 10] (raw.takeWhile (· != 0))).2 <:+ raw.takeWhile (· != 0) := by
      unfold skip skipWord
      simp only
      split
      · exact List.nil_suffix
      · rename_i x r hr
        have h1 : x :: r <:+ raw.takeWhile (· != 0) := by rw [← hr]; exact List.drop_suffix _ _
        exact (List.dropWhile_suffix _).trans ((List.suffix_cons x r).trans h1)
    have hS := hsuf.trans hsuf2
    generalize hp : kgHdrs (ClientResp.findDelim (raw.takeWhile (· != 0))) 16
      (skip [13, 10] (raw.takeWhile (· != 0))).2 = p at h hS
    split at h
    · simp only [KgRes.res.injEq] at h
      obtain ⟨_, _, _, rfl, rfl⟩ := h
      simp at hne
    · split at h
      · split at h
        · simp only [KgRes.res.injEq] at h
          obtain ⟨_, _, _, rfl, rfl⟩ := h
          simp at hne
        · rename_i b _
          generalize hcon : (raw.takeWhile (· != 0)).take
            ((raw.takeWhile (· != 0)).length - p.2.length) = con at h
          have hraw : con ++ p.2 ++ raw.drop (raw.takeWhile (· != 0)).length = raw := by
            obtain ⟨q, hq⟩ := hS
            have : con = q := by
              rw [← hcon]
              conv => lhs; rw [← hq]
              simp
            rw [this, hq]
            exact ClientResp.payload_eq raw
          split at h
          · cases h
          · simp only [KgRes.res.injEq] at h
            obtain ⟨_, _, _, rfl, rfl⟩ := h
            simp at hne
          · rename_i k' c' hsp
            simp only [KgRes.res.injEq] at h
            obtain ⟨he, _, _, rfl, rfl⟩ := h
            refine ⟨he.symm, ?_⟩
            unfold split at hsp
            split at hsp
            · cases hsp
            · rename_i k hk
              have hm := mem_cases con p.2 _ raw k hraw
              simp only at hm
              generalize hmem : (before con ++ p.2 ++
                raw.drop (raw.takeWhile (· != 0)).length).drop k = mem at hsp hm
              unfold parseParts at hsp
              split at hsp
              · cases hsp
              · split at hsp
                · cases hsp
                · rename_i all st hex
                  split at hsp
                  · cases hsp
                  · split at hsp
                    · cases hsp
                    · rename_i hne1 hlen
                      simp only [Parts.ok.injEq] at hsp
                      obtain ⟨rfl, rfl⟩ := hsp
                      rcases hm with hm | hm
                      · exfalso
                        have : (mem.takeWhile (· != 0)).length = 0 := by
                          cases mem with
                          | nil => rfl
                          | cons c t => simp at hm; simp [hm]
                        rw [this] at hex
                        simp only [execute, run, Exec.done.injEq] at hex
                        rw [← hex.2] at hne1
                        simp at hne1
                      · unfold execute at hex
                        have q := run_ok b _ {} _ [] all st
                          ⟨⟨piece_nil _, piece_nil _⟩, by simp, by simp, by simp⟩ hex
                        have hz : ∀ n, [] ++ mem.dropWhile (· == 45) ++ List.replicate n 0 <:+:
                            raw ++ List.replicate n 0 := by
                          intro n
                          obtain ⟨x, hx⟩ := (List.dropWhile_suffix (· == 45) (l := mem)).trans hm
                          exact ⟨x, [], by rw [← hx]; simp⟩
                        have q := StoreOk.mono q (hz _)
                        refine ⟨⟨by omega, q.1.2⟩, ⟨by omega, q.2.2⟩, _, q.1.1, q.2.1⟩
      · simp only [KgRes.res.injEq] at h
        obtain ⟨_, _, _, rfl, rfl⟩ := h
        simp at hne

/-- C65: a response of status 200 without any multipart header gives neither key nor
certificate; the code returned is success, so that the caller has to look at the length. -/
theorem C65_no_multipart (tok) (ctx : Ctx) (status : List Nat) (hs : List (Hdr × Nat))
    (b : List Nat) (g : ClientResp.Good status hs b)
    (h200 : ClientResp.statusCode status = some 200) (hl : 12 ≤ status.length)
    (hm : ∀ p ∈ hs, ¬ [109, 117, 108, 116, 105, 112, 97, 114, 116] <:+: p.1.value) :
    getKeygen tok ctx (response status hs b) = .res .none ctx.mode ctx.delay [] [] := by
  obtain ⟨_, _, hs3⟩ := ClientResp.split_response g
  have g' : ClientResp.Good status hs (b.takeWhile (· != 0)) :=
    ⟨g.st, g.wf, g.nonul, g.ne, g.few, ClientResp.head_takeWhile g.body⟩
  have hn : response status hs b ≠ [] := by unfold response; simp
  have hstat : ClientResp.statusCode (response status hs (b.takeWhile (· != 0))) = some 200 :=
    ClientResp.statusCode_append h200 hl
  have hbs : boundaries (hs.map (·.1)) none = .ok none := by
    have := boundaries_other (hs.map (·.1)) none [] (by
      intro x hx
      simp only [List.mem_map] at hx
      obtain ⟨p, hp, rfl⟩ := hx
      exact hm p hp)
    rw [List.append_nil] at this
    rw [this]; rfl
  unfold getKeygen
  rw [if_neg hn]
  simp only [hs3, kg_response g', hbs, hstat, if_true]

example : getKeygen (fun _ => true) ⟨.none, 0⟩
    ([72, 84, 84, 80, 47, 49, 46, 49, 32, 50, 48, 48, 32, 79, 75] ++ [13, 10] ++ [67, 111, 110, 116, 101, 110, 116, 45, 76, 101, 110, 103, 116, 104, 58, 32, 48] ++ [13, 10, 13, 10]) =
      .res .none .none 0 [] [] := by
  decide +kernel

end Verif.Multipart
