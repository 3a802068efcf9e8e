import Verif.SrvBrskiLemmas

/-!
# C128: what the sample server does with BRSKI messages

The statements are about JSON documents as `Verif.Voucher` describes them (`Field`, `Doc`, `lookup`),
about tokens in the order of the text, and about the client's own messages.
-/
namespace Verif.SrvBrski
open Verif.Jsmn (Tok Ty Val Ws StrBody)
open Verif.Voucher (Found slice jsoneq retrieve Field Doc FVal fieldsText lookup NotAValue parseVoucher voucherReq
  voucherStatusText enrollStatusText Status names)

/-! ## Specification -/

/-- Token `k` (not the first one) is a string with this text. -/
def NamedAt (js : List Nat) (ts : List Tok) (name : List Nat) (k : Nat) : Prop :=
  ∃ t, ts[k]? = some t ∧ 1 ≤ k ∧ t.ty = .string ∧ slice js t = name

/-- The text of the token behind the first one with this name is `v`; it is empty if there is
none behind it. -/
def After (js : List Nat) (ts : List Tok) (name v : List Nat) : Prop :=
  ∃ k, NamedAt js ts name k ∧ (∀ m, m < k → ¬ NamedAt js ts name m) ∧
    v = ((ts[k + 1]?).map (slice js)).getD []

/-- What a status message with this status and this reason gets. -/
def statusVerdict (status reason : Option (List Nat)) : Except Bad Code :=
  match status, reason with
  | none, _ => .ok .failure
  | some s, none => if s.length ≤ 5 then .ok .failure else .error .write
  | some s, some t => if s.length ≤ 5 ∧ t.length ≤ 254 then .ok .success else .error .write

/-- Allocated blocks are freed or handed over, once. -/
def Balanced (evs : List Ev) : Prop :=
  ∀ b, evs.count (.alloc b) = evs.count (.free b) + evs.count (.give b) ∧ evs.count (.alloc b) ≤ 1

/-- The tokeniser succeeds. -/
def isOk : Jsmn.Res → Bool
  | .ok _ _ => true
  | _ => false

theorem isOk_spec (x : Jsmn.Res) (h : isOk x = true) : ∃ n ts, x = .ok n ts := by
  cases x with
  | ok n ts => exact ⟨n, ts, rfl⟩
  | _ => cases h

/-- What the client's reader finds behind a name. -/
def found (t name : List Nat) : Option Found :=
  match Jsmn.parse 100 t with
  | .ok _ ts => some (retrieve t ts name 100 66)
  | _ => none

theorem found_spec (t name : List Nat) (x : Found) (h : found t name = some x) :
    ∃ n ts, Jsmn.parse 100 t = .ok n ts ∧ retrieve t ts name 100 66 = x := by
  unfold found at h
  cases hp : Jsmn.parse 100 t with
  | ok n ts => rw [hp] at h; exact ⟨n, ts, rfl, by simpa using h⟩
  | _ => rw [hp] at h; simp at h

/-! ## Printing the tokens -/

/-- C128, the part that holds: printing stays inside the array if it is not full. -/
theorem C128_print_partial (toks : List Tok) (h : toks.length < 100) : dumpAll toks 100 ≠ none := by
  obtain ⟨r, h1, _⟩ := dump_safe toks 100 h (toks.length + 1) 0 toks.length (by omega)
  simp [dumpAll, h1]

example : dumpAll [⟨.object, 0, some 9, 4⟩, ⟨.string, 2, some 3, 0⟩] 100 = some 2 := by decide +kernel

/-- C128: the tokens of a JSON text are printed one after the other to the end, in an array of
exactly their number as well. -/
theorem C128_print_json (w1 t w2 : List Nat) (ts : List Tok) (hw1 : Ws w1) (hw2 : Ws w2)
    (h : Val w1.length t ts) (hn : ts.length ≤ 100) :
    Jsmn.parse 100 (w1 ++ (t ++ w2)) = .ok ts.length ts ∧ dumpAll ts 100 = some ts.length :=
  ⟨Jsmn.C72_json_text 100 w1 t w2 ts hw1 hw2 h hn, dumpAll_val h 100⟩

example : Val ([] : List Nat).length [91, 49, 93] [⟨.array, 0, some 3, 1⟩, ⟨.primitive, 1, some 2, 0⟩] :=
  Val.cont false 0 [49] 1 _ (.one false 1 [] [49] [] _ (by simp [Ws]) (by simp [Ws])
    (.val _ _ _ (.prim _ [49] (by unfold Jsmn.PrimText; decide))))

/-- C128 is false for other texts: an object of 99 strings without colons fills the array, and as
many values are looked for as there are strings. -/
theorem C128_print_false :
    statusCb true (some ([123] ++ (List.replicate 99 [34, 34]).flatten ++ [125])) = .error .read ∧
      ∃ n ts, Jsmn.parse 100 ([123] ++ (List.replicate 99 [34, 34]).flatten ++ [125]) = .ok n ts :=
  ⟨by decide +kernel, isOk_spec _ (by decide +kernel)⟩

/-! ## Status messages -/

theorem drop_named {js : List Nat} {ts : List Tok} {name : List Nat} {k : Nat} {t : Tok} (hk : 1 ≤ k)
    (ht : ts[k]? = some t) : NamedAt js ts name k ↔ jsoneq js t name = true := by
  unfold NamedAt jsoneq
  rw [ht]
  constructor
  · rintro ⟨t', h1, _, h2, h3⟩
    cases h1
    simp [h2, h3]
  · intro h
    simp at h
    exact ⟨t, rfl, hk, h.1, h.2⟩

theorem look_spec (js name : List Nat) (cap : Nat) (ts : List Tok) : ∀ (rest : List Tok) (i : Nat),
    1 ≤ i → ts.drop i = rest → (∀ m, m < i → ¬ NamedAt js ts name m) →
    match look js name cap i rest with
    | .absent => ∀ m, ¬ NamedAt js ts name m
    | .over => cap ≤ ts.length ∧ NamedAt js ts name (ts.length - 1)
    | .value v => After js ts name v := by
  intro rest
  induction rest with
  | nil =>
    intro i h1 hd hb
    simp only [look]
    intro m hm
    obtain ⟨t, ht, _⟩ := hm
    have hl : ts.length ≤ i := by
      have := congrArg List.length hd; simp at this; omega
    have : m < ts.length := by
      rcases Nat.lt_or_ge m ts.length with q | q
      · exact q
      · rw [List.getElem?_eq_none q] at ht; cases ht
    exact hb m (by omega) ⟨t, ht, by assumption⟩
  | cons t rest ih =>
    intro i h1 hd hb
    have ht : ts[i]? = some t := by
      have : (ts.drop i)[0]? = some t := by rw [hd]; rfl
      simpa using this
    have hd' : ts.drop (i + 1) = rest := by
      rw [← List.drop_drop, hd]; rfl
    simp only [look]
    by_cases hj : jsoneq js t name = true
    · have hn : NamedAt js ts name i := (drop_named h1 ht).mpr hj
      rw [if_pos hj]
      cases rest with
      | nil =>
        have hl : ts.length = i + 1 := by
          have := congrArg List.length hd; simp at this
          have h2 : i < ts.length := by
            rcases Nat.lt_or_ge i ts.length with q | q
            · exact q
            · rw [List.getElem?_eq_none q] at ht; cases ht
          omega
        simp only
        by_cases hc : i + 1 < cap
        · rw [if_pos hc]
          exact ⟨i, hn, hb, by rw [List.getElem?_eq_none (by omega)]; rfl⟩
        · rw [if_neg hc]
          exact ⟨by omega, by rw [hl]; exact hn⟩
      | cons u r =>
        have hu : ts[i + 1]? = some u := by
          have : (ts.drop (i + 1))[0]? = some u := by rw [hd']; rfl
          simpa using this
        exact ⟨i, hn, hb, by rw [hu]; rfl⟩
    · rw [if_neg hj]
      refine ih (i + 1) (by omega) hd' ?_
      intro m hm
      by_cases he : m = i
      · rw [he, drop_named h1 ht]; exact hj
      · exact hb m (by omega)

theorem after_unique {js : List Nat} {ts : List Tok} {name v w : List Nat}
    (h1 : After js ts name v) (h2 : After js ts name w) : v = w := by
  obtain ⟨k, a1, a2, a3⟩ := h1
  obtain ⟨m, b1, b2, b3⟩ := h2
  have : k = m := by
    rcases Nat.lt_trichotomy k m with q | q | q
    · exact absurd a1 (b2 k q)
    · exact q
    · exact absurd b1 (a2 m q)
  rw [a3, b3, this]

/-- What `scan` says about the tokens. -/
theorem scan_spec (js name : List Nat) (size : Nat) (ts : List Tok) :
    match scan js ts name size with
    | .ok none => ∀ m, ¬ NamedAt js ts name m
    | .ok (some v) => After js ts name v ∧ v.length < size
    | .error .write => ∃ v, After js ts name v ∧ size ≤ v.length
    | .error .read => 100 ≤ ts.length ∧ NamedAt js ts name (ts.length - 1)
    | .error .null => False := by
  have h := look_spec js name tokCount ts (ts.drop 1) 1 (by omega) rfl (by
    rintro m hm ⟨t, _, h, _⟩; omega)
  unfold scan
  cases hl : look js name tokCount 1 (ts.drop 1) with
  | absent => rw [hl] at h; exact h
  | over => rw [hl] at h; exact h
  | value v =>
    rw [hl] at h
    simp only at h ⊢
    by_cases hs : v.length + 1 > size
    · rw [if_pos hs]; exact ⟨v, h, by omega⟩
    · rw [if_neg hs]; exact ⟨h, by omega⟩

theorem scan_absent {js name : List Nat} {size : Nat} {ts : List Tok} (h : ∀ m, ¬ NamedAt js ts name m) :
    scan js ts name size = .ok none := by
  have := scan_spec js name size ts
  split at this
  · assumption
  · obtain ⟨⟨k, hk, _⟩, _⟩ := this; exact absurd hk (h k)
  · obtain ⟨_, ⟨k, hk, _⟩, _⟩ := this; exact absurd hk (h k)
  · exact absurd this.2 (h _)
  · exact this.elim

theorem scan_after {js name v : List Nat} {size : Nat} {ts : List Tok} (h : After js ts name v)
    (hl : ts.length < 100) :
    scan js ts name size = if v.length < size then .ok (some v) else .error .write := by
  have := scan_spec js name size ts
  split at this
  · obtain ⟨k, hk, _⟩ := h; exact absurd hk (this k)
  · rename_i w e
    have e2 := after_unique h this.1
    rw [e, e2, if_pos this.2]
  · rename_i e
    obtain ⟨w, h1, h2⟩ := this
    have e2 := after_unique h h1
    rw [e, e2, if_neg (by omega)]
  · omega
  · exact this.elim

/-- C128: a text that is not JSON even for this tokeniser, or has more than 100 tokens, is answered
with a failure by all three callbacks, without reading or writing anything else. -/
theorem C128_refused (js : List Nat) (h : ∀ n ts, Jsmn.parse 100 js ≠ .ok n ts) (r : Reg) (hr : r.memTok = true)
    (peer : Option (Option (List Nat))) :
    statusCb true (some js) = .ok (.failure, [.alloc .tok, .free .tok]) ∧
      voucherCb r (some js) peer = .ok ⟨.failure, none, [.alloc .tok, .free .tok]⟩ := by
  have ht : tokens js = .ok [] := by
    have := Jsmn.C35_memory 100 js
    unfold tokens
    cases hp : Jsmn.parse tokCount js with
    | ok n ts => exact absurd hp (h n ts)
    | undef => exact absurd hp this.1
    | hang => exact absurd hp this.2.1
    | _ => rfl
  have hs : ∀ name size, scan js [] name size = .ok none := fun name size =>
    scan_absent (by rintro m ⟨t, h, _⟩; simp at h)
  constructor
  · simp [statusCb, ht, hs]
  · simp [voucherCb, hr, ht, hs]

example : Jsmn.parse 100 [123, 34, 83, 116, 97, 116, 117, 115, 34, 58, 116, 114, 117, 101] = .part := by decide +kernel

/-- C128, the decision on a status message with fewer than 100 tokens: the token behind the first
`Status` and the one behind the first `Reason` decide.  The missing part is the `.error .write`:
the server writes behind the end of its arrays. -/
theorem C128_status_any_partial (js : List Nat) (n : Nat) (ts : List Tok) (h : Jsmn.parse 100 js = .ok n ts)
    (hn : n < 100) :
    ((∀ m, ¬ NamedAt js ts [83, 116, 97, 116, 117, 115] m) →
      statusCb true (some js) = .ok (.failure, [.alloc .tok, .free .tok])) ∧
    (∀ s, After js ts [83, 116, 97, 116, 117, 115] s → s.length ≤ 5 → (∀ m, ¬ NamedAt js ts [82, 101, 97, 115, 111, 110] m) →
      statusCb true (some js) = .ok (.failure, [.alloc .tok, .free .tok])) ∧
    (∀ s t, After js ts [83, 116, 97, 116, 117, 115] s → s.length ≤ 5 → After js ts [82, 101, 97, 115, 111, 110] t → t.length ≤ 254 →
      statusCb true (some js) = .ok (.success, [.alloc .tok, .free .tok])) ∧
    (∀ s, After js ts [83, 116, 97, 116, 117, 115] s → 5 < s.length → statusCb true (some js) = .error .write) ∧
    (∀ s t, After js ts [83, 116, 97, 116, 117, 115] s → s.length ≤ 5 → After js ts [82, 101, 97, 115, 111, 110] t → 254 < t.length →
      statusCb true (some js) = .error .write) := by
  have hlen : ts.length < 100 := by
    have := (Jsmn.C35_memory 100 js).2.2 n ts h; omega
  have ht : tokens js = .ok ts := by
    unfold tokens
    simp only [tokCount, h]
    cases hd : dumpAll ts 100 with
    | none => exact absurd hd (C128_print_partial ts hlen)
    | some _ => rfl
  refine ⟨?_, ?_, ?_, ?_, ?_⟩
  · intro h1
    simp [statusCb, ht, scan_absent h1]
  · intro s h1 h2 h3
    simp only [statusCb, Bool.not_true, Bool.false_eq_true, if_false, ht, scan_after h1 hlen, scan_absent h3, if_pos (show s.length < 6 by omega)]
  · intro s t h1 h2 h3 h4
    simp only [statusCb, Bool.not_true, Bool.false_eq_true, if_false, ht, scan_after h1 hlen, scan_after h3 hlen, if_pos (show s.length < 6 by omega),
      if_pos (show t.length < 255 by omega)]
  · intro s h1 h2
    simp only [statusCb, Bool.not_true, Bool.false_eq_true, if_false, ht, scan_after h1 hlen, if_neg (show ¬ s.length < 6 by omega)]
  · intro s t h1 h2 h3 h4
    simp only [statusCb, Bool.not_true, Bool.false_eq_true, if_false, ht, scan_after h1 hlen, scan_after h3 hlen, if_pos (show s.length < 6 by omega),
      if_neg (show ¬ t.length < 255 by omega)]

example : Jsmn.parse 100 [123, 34, 83, 116, 97, 116, 117, 115, 34, 58, 49, 44, 34, 82, 101, 97, 115, 111, 110, 34, 125] = .ok 4
    [⟨.object, 0, some 21, 2⟩, ⟨.string, 2, some 8, 1⟩, ⟨.primitive, 10, some 11, 0⟩, ⟨.string, 13, some 19, 0⟩] ∧
    statusCb true (some [123, 34, 83, 116, 97, 116, 117, 115, 34, 58, 49, 44, 34, 82, 101, 97, 115, 111, 110, 34, 125]) = .ok (.success, [.alloc .tok, .free .tok]) := by
  decide +kernel

/-- C128: a status message is acknowledged only if it has both a status and a reason. -/
theorem C128_status_success (mem : Bool) (body : Option (List Nat)) (evs : List Ev)
    (h : statusCb mem body = .ok (.success, evs)) :
    ∃ js n ts s t, body = some js ∧ Jsmn.parse 100 js = .ok n ts ∧ After js ts [83, 116, 97, 116, 117, 115] s ∧
      s.length ≤ 5 ∧ After js ts [82, 101, 97, 115, 111, 110] t ∧ t.length ≤ 254 := by
  unfold statusCb at h
  cases body with
  | none => simp at h
  | some js =>
    cases mem with
    | false => simp at h
    | true =>
      simp only [Bool.not_true, Bool.false_eq_true, if_false] at h
      cases hp : Jsmn.parse tokCount js with
      | ok n ts =>
        have hq : tokens js = .ok ts ∨ tokens js = .error .read := by
          unfold tokens
          rw [hp]
          simp only
          cases dumpAll ts tokCount <;> simp
        rcases hq with hq | hq
        · rw [hq] at h
          simp only at h
          have h1 := scan_spec js [83, 116, 97, 116, 117, 115] 6 ts
          have h2 := scan_spec js [82, 101, 97, 115, 111, 110] 255 ts
          cases hs : scan js ts [83, 116, 97, 116, 117, 115] 6 with
          | error b => rw [hs] at h; simp at h
          | ok o =>
            rw [hs] at h h1
            cases o with
            | none => simp at h
            | some s =>
              simp only at h
              cases hr : scan js ts [82, 101, 97, 115, 111, 110] 255 with
              | error b => rw [hr] at h; simp at h
              | ok o =>
                rw [hr] at h h2
                cases o with
                | none => simp at h
                | some t =>
                  exact ⟨js, n, ts, s, t, rfl, hp, h1.1, by omega, h2.1, by omega⟩
        · rw [hq] at h; simp at h
      | _ =>
        exfalso
        have hs : ∀ name size, scan js [] name size = .ok none := fun name size =>
          scan_absent (by rintro m ⟨t, h, _⟩; simp at h)
        simp [tokens, hp, hs] at h

theorem scan_obj (fs : List Field) (name : List Nat) (size : Nat) (hv : NotAValue fs name) :
    scan (123 :: (fieldsText fs ++ [125])) (objToks fs) name size =
      match lookup fs name with
      | none => .ok none
      | some v => if v.length < size then .ok (some v) else .error .write := by
  unfold scan
  rw [look_obj fs name hv]
  cases lookup fs name with
  | none => rfl
  | some v =>
    simp only
    by_cases hl : v.length < size
    · rw [if_pos hl, if_neg (by omega)]
    · rw [if_neg hl, if_pos (by omega)]

/-- C128, the decision on a JSON object with up to 49 members: its members `Status` and `Reason`
decide, whatever the others are. -/
theorem C128_status_object_partial (fs : List Field) (h1 : fs ≠ []) (h2 : ∀ f ∈ fs, f.Ok) (hn : fs.length ≤ 49)
    (hs : NotAValue fs [83, 116, 97, 116, 117, 115]) (hr : NotAValue fs [82, 101, 97, 115, 111, 110]) :
    (statusCb true (some (123 :: (fieldsText fs ++ [125])))).map Prod.fst =
      statusVerdict (lookup fs [83, 116, 97, 116, 117, 115]) (lookup fs [82, 101, 97, 115, 111, 110]) := by
  simp only [statusCb, tokens_obj fs h1 h2 hn, scan_obj fs _ _ hs, scan_obj fs _ _ hr]
  generalize lookup fs [83, 116, 97, 116, 117, 115] = S
  generalize lookup fs [82, 101, 97, 115, 111, 110] = T
  cases S with
  | none => rfl
  | some s =>
    by_cases a : s.length ≤ 5
    · cases T with
      | none => simp [statusVerdict, a, show s.length < 6 by omega]; rfl
      | some t =>
        by_cases b : t.length ≤ 254
        · simp [statusVerdict, a, b, show s.length < 6 by omega, show t.length < 255 by omega]; rfl
        · simp [statusVerdict, a, b, show s.length < 6 by omega, show ¬ t.length < 255 by omega]; rfl
    · cases T with
      | none => simp [statusVerdict, a, show ¬ s.length < 6 by omega]; rfl
      | some t => simp [statusVerdict, a, show ¬ s.length < 6 by omega]; rfl

/-- An object with a member that is no string. -/
def demoFields : List Field :=
  [⟨[32], [83, 116, 97, 116, 117, 115], [], [], .prim [116, 114, 117, 101], []⟩, ⟨[], [82, 101, 97, 115, 111, 110], [], [], .str [111, 107], [10]⟩]

example : demoFields ≠ [] ∧ (∀ f ∈ demoFields, f.Ok) ∧ NotAValue demoFields [83, 116, 97, 116, 117, 115] ∧
    NotAValue demoFields [82, 101, 97, 115, 111, 110] ∧ statusVerdict (lookup demoFields [83, 116, 97, 116, 117, 115]) (lookup demoFields [82, 101, 97, 115, 111, 110]) =
      .ok .success := by
  refine ⟨by simp [demoFields], ?_, by unfold NotAValue; decide, by unfold NotAValue; decide, by decide⟩
  intro f hf
  simp only [demoFields, List.mem_cons, List.not_mem_nil, or_false] at hf
  rcases hf with rfl | rfl
  · exact ⟨Voucher.ws_dec _ rfl, Voucher.strBody_plain _ (by decide), Voucher.ws_dec _ rfl, Voucher.ws_dec _ rfl,
      (by unfold FVal.Ok Jsmn.PrimText; decide), Voucher.ws_dec _ rfl⟩
  · exact ⟨Voucher.ws_dec _ rfl, Voucher.strBody_plain _ (by decide), Voucher.ws_dec _ rfl, Voucher.ws_dec _ rfl,
      Voucher.strBody_plain _ (by decide), Voucher.ws_dec _ rfl⟩

/-- The members of a list of fields, for lookups. -/
theorem lookup_map (fs : List Field) (ms : List (List Nat × FVal)) (name : List Nat)
    (h : fs.map (fun f => (f.key, f.val)) = ms) :
    lookup fs name = (ms.find? fun m => m.1 == name).map fun m => m.2.raw := by
  subst h
  unfold lookup
  rw [List.find?_map]
  simp [Function.comp_def]

theorem notAValue_map (fs : List Field) (ms : List (List Nat × FVal)) (name : List Nat)
    (h : fs.map (fun f => (f.key, f.val)) = ms) (hm : ∀ m ∈ ms, m.2 ≠ .str name) : NotAValue fs name := by
  subst h
  intro f hf
  exact hm (f.key, f.val) (by simp; exact ⟨f, hf, rfl, rfl⟩)

theorem client_status {text : List Nat} {ms : List (List Nat × FVal)} (h : Voucher.IsObject text ms)
    (hn : ms.length ≤ 49) (hs : ∀ m ∈ ms, m.2 ≠ .str [83, 116, 97, 116, 117, 115]) (hr : ∀ m ∈ ms, m.2 ≠ .str [82, 101, 97, 115, 111, 110]) :
    (statusCb true (some text)).map Prod.fst =
      statusVerdict ((ms.find? fun m => m.1 == [83, 116, 97, 116, 117, 115]).map fun m => m.2.raw)
        ((ms.find? fun m => m.1 == [82, 101, 97, 115, 111, 110]).map fun m => m.2.raw) := by
  obtain ⟨fs, h1, h2, h3, h4⟩ := h
  subst h3
  rw [C128_status_object_partial fs h1 h2 (by rw [← h4] at hn; simpa using hn)
    (notAValue_map fs ms _ h4 hs) (notAValue_map fs ms _ h4 hr), lookup_map fs ms _ h4, lookup_map fs ms _ h4]

/-- C128: the client's own voucher status is acknowledged if the reason needs no escaping and has at
most 254 bytes; one of 255 bytes, which the client still sends, is written behind the array. -/
theorem C128_voucher_status (s : Status) (reason : List Nat) (hr : StrBody reason) (hl : reason.length ≤ 255)
    (h1 : reason ≠ [83, 116, 97, 116, 117, 115]) (h2 : reason ≠ [82, 101, 97, 115, 111, 110]) :
    (statusCb true (some (voucherStatusText s reason))).map Prod.fst =
      if reason.length ≤ 254 then .ok .success else .error .write := by
  rw [client_status (Voucher.C75_voucher_status_partial s reason hr hl) (by simp)
    (by simp [h1]) (by simp [h2])]
  have hw : (Voucher.boolWord s).length ≤ 5 := by cases s <;> decide
  simp [List.find?, statusVerdict, FVal.raw, hw]

example : (statusCb true (some (voucherStatusText .fail [110, 111, 32, 92, 34, 116, 114, 117, 115, 116, 92, 34]))).map Prod.fst = .ok .success :=
  C128_voucher_status .fail [110, 111, 32, 92, 34, 116, 114, 117, 115, 116, 92, 34]
    (.char _ _ (by decide) (by decide) (by decide) (.char _ _ (by decide) (by decide) (by decide)
      (.char _ _ (by decide) (by decide) (by decide) (.esc _ _ (by decide)
        (.char _ _ (by decide) (by decide) (by decide) (.char _ _ (by decide) (by decide) (by decide)
          (.char _ _ (by decide) (by decide) (by decide) (.char _ _ (by decide) (by decide) (by decide)
            (.char _ _ (by decide) (by decide) (by decide) (.esc _ _ (by decide) .nil)))))))))) (by decide) (by decide) (by decide)

/-- C128: the same for the client's enrolment status. -/
theorem C128_enroll_status (s : Status) (reason ski : List Nat) (hr : StrBody reason) (hl : reason.length ≤ 255)
    (hk : StrBody ski) (hkl : ski.length ≤ 32)
    (h1 : reason ∉ [[83, 116, 97, 116, 117, 115], [82, 101, 97, 115, 111, 110]]) (h2 : ski ∉ [[83, 116, 97, 116, 117, 115], [82, 101, 97, 115, 111, 110]]) :
    (statusCb true (some (enrollStatusText s reason ski))).map Prod.fst =
      if reason.length ≤ 254 then .ok .success else .error .write := by
  simp only [List.mem_cons, List.not_mem_nil, or_false, not_or] at h1 h2
  rw [client_status (Voucher.C75_enroll_status_partial s reason ski hr hl hk hkl) (by simp)
    (by simp [h1, h2]) (by simp [h1, h2])]
  have hw : (Voucher.boolWord s).length ≤ 5 := by cases s <;> decide
  simp [List.find?, statusVerdict, FVal.raw, hw]

/-- C128: the longest reason the client sends is written behind the end of the server's array. -/
theorem C128_reason_false :
    statusCb true (some (voucherStatusText .fail (List.replicate 255 120))) = .error .write ∧
      statusCb true (some (voucherStatusText .fail (List.replicate 254 120))) =
        .ok (.success, [.alloc .tok, .free .tok]) := by
  decide +kernel

/-- C128: so is a status of more than five bytes, of any length. -/
theorem C128_status_false (v : List Nat) (hv : StrBody v) (hl : 5 < v.length) (h1 : v ≠ [83, 116, 97, 116, 117, 115])
    (h2 : v ≠ [82, 101, 97, 115, 111, 110]) :
    (statusCb true (some ([123, 34, 83, 116, 97, 116, 117, 115, 34, 58, 34] ++ (v ++ [34, 44, 34, 82, 101, 97, 115, 111, 110, 34, 58, 34, 34, 125])))).map Prod.fst = .error .write := by
  have ho : Voucher.IsObject ([123, 34, 83, 116, 97, 116, 117, 115, 34, 58, 34] ++ (v ++ [34, 44, 34, 82, 101, 97, 115, 111, 110, 34, 58, 34, 34, 125]))
      [([83, 116, 97, 116, 117, 115], .str v), ([82, 101, 97, 115, 111, 110], .str [])] := by
    have n0 : Ws [] := Voucher.ws_dec _ rfl
    refine ⟨[⟨[], [83, 116, 97, 116, 117, 115], [], [], .str v, []⟩, ⟨[], [82, 101, 97, 115, 111, 110], [], [], .str [], []⟩], by simp, ?_, ?_, rfl⟩
    · intro f hf
      simp only [List.mem_cons, List.not_mem_nil, or_false] at hf
      rcases hf with rfl | rfl
      · exact ⟨n0, Voucher.strBody_plain _ (by simp), n0, n0, hv, n0⟩
      · exact ⟨n0, Voucher.strBody_plain _ (by simp), n0, n0, StrBody.nil, n0⟩
    · simp [fieldsText, Field.inner, FVal.text]
  rw [client_status ho (by simp) (by simp [h1]) (by simp [h2])]
  simp [List.find?, statusVerdict, FVal.raw]
  omega

example : StrBody [102, 97, 105, 108, 101, 100] ∧ 5 < ([102, 97, 105, 108, 101, 100]).length := ⟨Voucher.strBody_plain _ (by decide), by decide⟩

/-- C128: with 100 tokens and the name last, the value is looked for behind the array. -/
theorem C128_last_token_false :
    statusCb true (some ([91] ++ (List.replicate 98 [48, 44]).flatten ++ [34, 83, 116, 97, 116, 117, 115, 34, 93])) = .error .read := by
  decide +kernel

/-! ## Vouchers -/

theorem scan_doc (d : Doc) (name : List Nat) (size : Nat) (hn : d.name ≠ name) (hv : NotAValue d.fields name) :
    scan d.text d.toks name size =
      match lookup d.fields name with
      | none => .ok none
      | some v => if v.length < size then .ok (some v) else .error .write := by
  unfold scan
  rw [look_doc d name hn hv]
  cases lookup d.fields name with
  | none => rfl
  | some v =>
    simp only
    by_cases hl : v.length < size
    · rw [if_pos hl, if_neg (by omega)]
    · rw [if_neg hl, if_pos (by omega)]

/-- A voucher request: a document with a nonce and the registrar's certificate that fit. -/
structure Request (d : Doc) (nonce cert : List Nat) : Prop where
  ok : d.Ok
  few : d.fields.length ≤ 48
  name : d.name ≠ [110, 111, 110, 99, 101] ∧ d.name ≠ [112, 114, 111, 120, 105, 109, 105, 116, 121, 45, 114, 101, 103, 105, 115, 116, 114, 97, 114, 45, 99, 101, 114, 116]
  noValue : NotAValue d.fields [110, 111, 110, 99, 101] ∧ NotAValue d.fields [112, 114, 111, 120, 105, 109, 105, 116, 121, 45, 114, 101, 103, 105, 115, 116, 114, 97, 114, 45, 99, 101, 114, 116]
  hasNonce : lookup d.fields [110, 111, 110, 99, 101] = some nonce
  nonceLen : nonce.length ≤ 32
  hasCert : lookup d.fields [112, 114, 111, 120, 105, 109, 105, 116, 121, 45, 114, 101, 103, 105, 115, 116, 114, 97, 114, 45, 99, 101, 114, 116] = some cert
  certLen : cert.length ≤ 8192

/-- What happens to such a request does not depend on anything else in it. -/
theorem request_build (r : Reg) (d : Doc) (nonce cert : List Nat) (h : Request d nonce cert) (hm : r.memTok = true)
    (peer : Option (Option (List Nat))) :
    voucherCb r (some d.text) peer =
      match peer with
      | none => .error .null
      | some none => .ok ⟨.est .clientBrskiSerialNumMissing, none, [.alloc .tok, .free .tok]⟩
      | some (some serial) => build r nonce serial := by
  have h1 := scan_doc d [110, 111, 110, 99, 101] 33 h.name.1 h.noValue.1
  have h2 := scan_doc d [112, 114, 111, 120, 105, 109, 105, 116, 121, 45, 114, 101, 103, 105, 115, 116, 114, 97, 114, 45, 99, 101, 114, 116] 8193 h.name.2 h.noValue.2
  rw [h.hasNonce] at h1
  rw [h.hasCert] at h2
  simp only at h1 h2
  rw [if_pos (show nonce.length < 33 by have := h.nonceLen; omega)] at h1
  rw [if_pos (show cert.length < 8193 by have := h.certLen; omega)] at h2
  simp only [voucherCb, hm, Bool.not_true, Bool.false_eq_true, if_false, tokens_doc d h.ok h.few, h1, h2]
  cases peer with
  | none => rfl
  | some q => cases q <;> rfl

theorem voucherText_length (nonce ca serial : List Nat) :
    (voucherText nonce ca serial).length = 114 + nonce.length + ca.length + serial.length := by
  simp [voucherText]; omega

/-- C128, the part that holds: if the text of the certificates is a string in memory, a request is
answered with the signed voucher for its nonce and the serial number of the peer's certificate. -/
theorem C128_voucher_partial (r : Reg) (d : Doc) (nonce cert ca junk serial s : List Nat)
    (f : List Nat → Option (List Nat)) (h : Request d nonce cert)
    (hm : r.memTok = true ∧ r.memPlain = true ∧ r.memSigned = true)
    (hca : r.ca = some (ca ++ 0 :: junk)) (h0 : 0 ∉ ca) (hf : r.masa = some f)
    (hl : (voucherText nonce ca serial).length < 16384)
    (hs : f (voucherText nonce ca serial) = some s) (hsl : s.length ≤ 16384) :
    voucherCb r (some d.text) (some (some serial)) = .ok ⟨.success, some s,
      [.alloc .tok, .free .tok, .alloc .plain, .alloc .signed, .free .plain, .give .signed]⟩ := by
  rw [request_build r d nonce cert h hm.1]
  have hc : cStr (ca ++ 0 :: junk) = some ca := by
    unfold cStr
    rw [if_pos (by simp), List.takeWhile_append_of_pos (by
      intro c hc; simp; intro e; exact h0 (e ▸ hc))]
    simp
  simp only [build, hm.2.1, hca, hc, sign, hf, hm.2.2, Bool.not_true, Bool.false_eq_true, if_false]
  rw [if_neg (by omega), List.take_of_length_le (l := voucherText nonce ca serial) (by omega),
    List.take_append_of_le_length (by omega), List.take_of_length_le (by omega), hs]
  simp only
  rw [if_neg (by omega)]
  rfl

/-- C128 is false of the code: the sample server keeps the certificates without a NUL behind them, so
that every proper request makes it read on behind the block until there is one. -/
theorem C128_voucher_false (r : Reg) (d : Doc) (nonce cert text serial : List Nat) (h : Request d nonce cert)
    (hm : r.memTok = true ∧ r.memPlain = true) (hne : text ≠ []) (h0 : 0 ∉ text)
    (hca : r.ca = loadCa (some text)) :
    voucherCb r (some d.text) (some (some serial)) = .error .read := by
  rw [request_build r d nonce cert h hm.1]
  have hl : loadCa (some text) = some text := by
    unfold loadCa
    cases text with
    | nil => exact absurd rfl hne
    | cons a b => rfl
  have hc : cStr text = none := by unfold cStr; rw [if_neg h0]
  simp only [build, hm.2, hca, hl, hc]
  rfl

/-- C128 is false: a client that has authenticated with a password and has no certificate makes the
server use a NULL pointer; one whose certificate has no serial number gets an answer that is
none of the codes of the interface. -/
theorem C128_no_certificate_false (r : Reg) (d : Doc) (nonce cert : List Nat) (h : Request d nonce cert)
    (hm : r.memTok = true) :
    voucherCb r (some d.text) none = .error .null ∧
      voucherCb r (some d.text) (some none) =
        .ok ⟨.est .clientBrskiSerialNumMissing, none, [.alloc .tok, .free .tok]⟩ :=
  ⟨by rw [request_build r d nonce cert h hm], by rw [request_build r d nonce cert h hm]⟩

/-- C128: a request whose nonce has more than 32 bytes is written behind the end of the array, of any
length; the same for a certificate of more than 8192. -/
theorem C128_nonce_false (r : Reg) (d : Doc) (nonce : List Nat) (hm : r.memTok = true)
    (peer : Option (Option (List Nat))) (hok : d.Ok) (few : d.fields.length ≤ 48)
    (name : d.name ≠ [110, 111, 110, 99, 101]) (hv : NotAValue d.fields [110, 111, 110, 99, 101])
    (hn : lookup d.fields [110, 111, 110, 99, 101] = some nonce) (hl : 32 < nonce.length) :
    voucherCb r (some d.text) peer = .error .write := by
  have h1 := scan_doc d [110, 111, 110, 99, 101] 33 name hv
  rw [hn] at h1
  simp only [if_neg (show ¬ nonce.length < 33 by omega)] at h1
  simp only [voucherCb, hm, tokens_doc d hok few, h1]
  rfl

example : voucherCb ⟨none, none, true, true, true⟩
    (some ([123, 34, 118, 34, 58, 123, 34, 110, 111, 110, 99, 101, 34, 58, 34] ++ (List.replicate 33 120 ++ [34, 125, 125]))) none = .error .write := by decide +kernel

/-- C128: no success without a signature: the bytes handed over are what the signing function made of a
voucher text with the nonce of the request and the peer's serial number. -/
theorem C128_signed (r : Reg) (body : Option (List Nat)) (peer : Option (Option (List Nat))) (o : VOut)
    (h : voucherCb r body peer = .ok o) (hs : o.code = .success) :
    ∃ js n ts nonce ca serial block f s, body = some js ∧ Jsmn.parse 100 js = .ok n ts ∧
      After js ts [110, 111, 110, 99, 101] nonce ∧ nonce.length ≤ 32 ∧ peer = some (some serial) ∧ r.ca = some block ∧
      cStr block = some ca ∧ r.masa = some f ∧ o.voucher = some s ∧ s.length ≤ 16384 ∧
      f (((voucherText nonce ca serial).take 16383 ++ [0]).take (voucherText nonce ca serial).length) = some s := by
  unfold voucherCb at h
  cases body with
  | none => simp at h
  | some js =>
    simp only at h
    split at h
    · cases h; cases hs
    · cases ht : tokens js with
      | error b => rw [ht] at h; simp at h
      | ok ts =>
        rw [ht] at h
        simp only at h
        have h1 := scan_spec js [110, 111, 110, 99, 101] 33 ts
        cases hn : scan js ts [110, 111, 110, 99, 101] 33 with
        | error b => rw [hn] at h; simp at h
        | ok x =>
          rw [hn] at h h1
          cases x with
          | none => simp only at h; cases h; cases hs
          | some nonce =>
            simp only at h
            cases hc : scan js ts [112, 114, 111, 120, 105, 109, 105, 116, 121, 45, 114, 101, 103, 105, 115, 116, 114, 97, 114, 45, 99, 101, 114, 116] 8193 with
            | error b => rw [hc] at h; simp at h
            | ok x =>
              rw [hc] at h
              cases x with
              | none => simp only at h; cases h; cases hs
              | some cert =>
                simp only at h
                have hp : ∃ n, Jsmn.parse 100 js = .ok n ts := by
                  unfold tokens at ht
                  cases hp : Jsmn.parse tokCount js with
                  | ok n us =>
                    rw [hp] at ht
                    simp only at ht
                    cases hd : dumpAll us tokCount with
                    | none => rw [hd] at ht; simp at ht
                    | some _ => rw [hd] at ht; cases ht; exact ⟨n, hp⟩
                  | undef => rw [hp] at ht; simp at ht
                  | hang => rw [hp] at ht; simp at ht
                  | _ =>
                    rw [hp] at ht
                    cases ht
                    obtain ⟨⟨k, ⟨t, h, _⟩, _⟩, _⟩ := h1
                    simp at h
                obtain ⟨n, hp⟩ := hp
                cases peer with
                | none => simp at h
                | some q =>
                  cases q with
                  | none => simp only at h; cases h; cases hs
                  | some serial =>
                    simp only [build] at h
                    split at h
                    · cases h; cases hs
                    · cases hca : r.ca with
                      | none => rw [hca] at h; simp at h
                      | some block =>
                        rw [hca] at h
                        simp only at h
                        cases hcs : cStr block with
                        | none => rw [hcs] at h; simp at h
                        | some ca =>
                          rw [hcs] at h
                          simp only [sign] at h
                          cases hf : r.masa with
                          | none => rw [hf] at h; simp only at h; cases h; cases hs
                          | some f =>
                            rw [hf] at h
                            simp only at h
                            split at h
                            · cases h; cases hs
                            · split at h
                              · cases h
                              · split at h
                                · cases h; cases hs
                                · rename_i s hfs
                                  split at h
                                  · cases h
                                  · rename_i hsl
                                    cases h
                                    exact ⟨js, n, ts, nonce, ca, serial, block, f, s, rfl, hp, h1.1, by omega,
                                      rfl, rfl, hcs, rfl, rfl, by omega, hfs⟩

/-- C128 is false: without the MASA's key, which is optional, no request ever succeeds, although the
server builds the voucher. -/
theorem C128_unsigned_false (r : Reg) (body : Option (List Nat)) (peer : Option (Option (List Nat))) (o : VOut)
    (hr : r.masa = none) (h : voucherCb r body peer = .ok o) : o.code ≠ .success := by
  intro hs
  obtain ⟨_, _, _, _, _, _, _, f, _, _, _, _, _, _, _, _, hf, _⟩ := C128_signed r body peer o h hs
  rw [hr] at hf
  cases hf

/-- Without the MASA's key the text of the voucher, cut to 16383 bytes, is handed out together with
the code for failure. -/
theorem C128_unsigned_text (r : Reg) (d : Doc) (nonce cert ca junk serial : List Nat) (h : Request d nonce cert)
    (hm : r.memTok = true ∧ r.memPlain = true) (hca : r.ca = some (ca ++ 0 :: junk)) (h0 : 0 ∉ ca)
    (hf : r.masa = none) :
    voucherCb r (some d.text) (some (some serial)) = .ok ⟨.failure, some ((voucherText nonce ca serial).take 16383),
      [.alloc .tok, .free .tok, .alloc .plain, .give .plain]⟩ := by
  rw [request_build r d nonce cert h hm.1]
  have hc : cStr (ca ++ 0 :: junk) = some ca := by
    unfold cStr
    rw [if_pos (by simp), List.takeWhile_append_of_pos (by
      intro c hc; simp; intro e; exact h0 (e ▸ hc))]
    simp
  simp only [build, hm.2, hca, hc, sign, hf, Bool.not_true, Bool.false_eq_true, if_false]
  rfl

/-- C128 is false: a voucher of more than 16384 bytes is cut to the size of the array, but signed with its
whole length. -/
theorem C128_long_voucher_false (r : Reg) (d : Doc) (nonce cert ca junk serial : List Nat)
    (f : List Nat → Option (List Nat)) (h : Request d nonce cert)
    (hm : r.memTok = true ∧ r.memPlain = true ∧ r.memSigned = true)
    (hca : r.ca = some (ca ++ 0 :: junk)) (h0 : 0 ∉ ca) (hf : r.masa = some f)
    (hl : 16384 < (voucherText nonce ca serial).length) :
    voucherCb r (some d.text) (some (some serial)) = .error .read := by
  rw [request_build r d nonce cert h hm.1]
  have hc : cStr (ca ++ 0 :: junk) = some ca := by
    unfold cStr
    rw [if_pos (by simp), List.takeWhile_append_of_pos (by
      intro c hc; simp; intro e; exact h0 (e ▸ hc))]
    simp
  simp only [build, hm.2.1, hca, hc, sign, hf, hm.2.2, Bool.not_true, Bool.false_eq_true, if_false]
  rw [if_pos hl]

example : 16384 < (voucherText [] (List.replicate 16271 65) []).length := by
  rw [voucherText_length, List.length_replicate, List.length_nil]; decide

/-- Without memory for the tokens a status message is answered with the code for a bad parameter,
whatever it says. -/
theorem C128_status_no_memory (js : List Nat) : statusCb false (some js) = .ok (.invalidParameter, []) := rfl

/-- C128: no block is lost or freed twice, in any of the outcomes. -/
theorem C128_memory (r : Reg) (body : Option (List Nat)) (peer : Option (Option (List Nat))) :
    (∀ o, voucherCb r body peer = .ok o → Balanced o.evs ∧
      (o.voucher = none ↔ ∀ b, Ev.give b ∉ o.evs)) ∧
    (∀ mem c evs, statusCb mem body = .ok (c, evs) → Balanced evs ∧ ∀ b, Ev.give b ∉ evs) := by
  constructor
  · intro o h
    unfold voucherCb build sign at h
    repeat' split at h
    all_goals first
      | (cases h; done)
      | (cases h
         refine ⟨?_, ?_⟩
         · intro b; dsimp only; cases b <;> decide
         · first
           | (simp; done)
           | (refine ⟨(by intro e; cases e), fun q => absurd (q .plain) (by simp)⟩)
           | (refine ⟨(by intro e; cases e), fun q => absurd (q .signed) (by simp)⟩))
  · intro mem c evs h
    unfold statusCb at h
    repeat' split at h
    all_goals first
      | (cases h; done)
      | (cases h
         refine ⟨?_, ?_⟩
         · intro b; cases b <;> decide
         · simp)

/-! ## The client and the server -/

/-- The voucher as a document. -/
def voucherDoc (nonce ca serial : List Nat) : Doc where
  w0 := []
  wa := [10, 13]
  name := [105, 101, 116, 102, 45, 118, 111, 117, 99, 104, 101, 114, 58, 118, 111, 117, 99, 104, 101, 114]
  wb := []
  wc := []
  fields := [⟨[10, 13], [110, 111, 110, 99, 101], [], [], .str nonce, []⟩, ⟨[10, 13], [97, 115, 115, 101, 114, 116, 105, 111, 110], [], [], .str [108, 111, 103, 103, 105, 110, 103], []⟩,
    ⟨[10, 13], [112, 105, 110, 110, 101, 100, 45, 100, 111, 109, 97, 105, 110, 45, 99, 101, 114, 116], [], [], .str ca, []⟩, ⟨[10, 13], [115, 101, 114, 105, 97, 108, 45, 110, 117, 109, 98, 101, 114], [], [], .str serial, []⟩]
  wd := [10, 13]
  we := []

theorem voucherDoc_text (nonce ca serial : List Nat) : (voucherDoc nonce ca serial).text = voucherText nonce ca serial := by
  simp [voucherDoc, Doc.text, Doc.inner, fieldsText, Field.inner, FVal.text, voucherText]

theorem voucherDoc_ok (nonce ca serial : List Nat) (h1 : StrBody nonce) (h2 : StrBody ca) (h3 : StrBody serial) :
    (voucherDoc nonce ca serial).Ok := by
  have n0 : Ws [] := Voucher.ws_dec _ rfl
  have n2 : Ws [10, 13] := Voucher.ws_dec _ rfl
  have hname : StrBody [105, 101, 116, 102, 45, 118, 111, 117, 99, 104, 101, 114, 58, 118, 111, 117, 99, 104, 101, 114] := Voucher.strBody_plain _ (by simp)
  refine ⟨n0, n2, hname, n0, n0, n2, n0, by simp [voucherDoc], ?_⟩
  intro f hf
  simp only [voucherDoc, List.mem_cons, List.not_mem_nil, or_false] at hf
  rcases hf with rfl | rfl | rfl | rfl
  · exact ⟨n2, Voucher.strBody_plain _ (by simp), n0, n0, h1, n0⟩
  · exact ⟨n2, Voucher.strBody_plain _ (by simp), n0, n0, Voucher.strBody_plain _ (by simp), n0⟩
  · exact ⟨n2, Voucher.strBody_plain _ (by simp), n0, n0, h2, n0⟩
  · exact ⟨n2, Voucher.strBody_plain _ (by simp), n0, n0, h3, n0⟩

/-- C128: the request the client builds is a proper one. -/
theorem C128_client_request (nonce time cert : List Nat) (hn : StrBody nonce) (ht : StrBody time)
    (hc : StrBody cert) (h1 : nonce.length = 32) (h2 : time.length ≤ 25) (h3 : cert.length ≤ 8192)
    (h4 : time ≠ [110, 111, 110, 99, 101] ∧ time ≠ [112, 114, 111, 120, 105, 109, 105, 116, 121, 45, 114, 101, 103, 105, 115, 116, 114, 97, 114, 45, 99, 101, 114, 116])
    (h5 : cert ≠ [110, 111, 110, 99, 101] ∧ cert ≠ [112, 114, 111, 120, 105, 109, 105, 116, 121, 45, 114, 101, 103, 105, 115, 116, 114, 97, 114, 45, 99, 101, 114, 116]) :
    ∃ d, voucherReq nonce time cert = d.text ∧ Request d nonce cert := by
  obtain ⟨d, ok, text, name, fields⟩ := Voucher.C75_voucher_request_partial nonce time cert hn ht hc h1 h2 h3
  have hne : ∀ x : List Nat, x.length ≠ 32 → nonce ≠ x := by rintro x hx rfl; exact hx h1
  refine ⟨d, text, ok, ?_, ?_, ⟨?_, ?_⟩, ?_, by omega, ?_, h3⟩
  · have := congrArg List.length fields; simp at this; omega
  · rw [name]; decide
  · refine notAValue_map _ _ _ fields ?_
    simp [h4, h5, hne [110, 111, 110, 99, 101] (by decide)]
  · refine notAValue_map _ _ _ fields ?_
    simp [h4, h5, hne [112, 114, 111, 120, 105, 109, 105, 116, 121, 45, 114, 101, 103, 105, 115, 116, 114, 97, 114, 45, 99, 101, 114, 116] (by decide)]
  · rw [lookup_map _ _ _ fields]; rfl
  · rw [lookup_map _ _ _ fields]; rfl

example : ∃ d, voucherReq Voucher.sampleNonce [50, 48, 50, 48, 45, 48, 49, 45, 48, 49, 84, 48, 48, 58, 48, 48, 58, 48, 48, 90] [77, 73, 73, 66] = d.text ∧
    Request d Voucher.sampleNonce [77, 73, 73, 66] :=
  C128_client_request _ _ _ (Voucher.strBody_plain _ (by decide)) (Voucher.strBody_plain _ (by decide))
    (Voucher.strBody_plain _ (by decide)) (by decide) (by decide) (by decide) (by decide) (by decide)

/-- C128, the part that holds, from end to end: a client with serial number `serial` that sends its
request gets a voucher it accepts, and takes over the server's certificates from it, if the server
has a MASA key and its certificates are a string in memory. -/
theorem C128_round_trip_partial (r : Reg) (nonce time cert ca junk serial s ca' : List Nat)
    (f : List Nat → Option (List Nat)) (vc : List Nat → Except EstErr (List Nat))
    (hn : StrBody nonce) (ht : StrBody time) (hc : StrBody cert)
    (h1 : nonce.length = 32) (h2 : time.length ≤ 25) (h3 : cert.length ≤ 8192)
    (h4 : time ≠ [110, 111, 110, 99, 101] ∧ time ≠ [112, 114, 111, 120, 105, 109, 105, 116, 121, 45, 114, 101, 103, 105, 115, 116, 114, 97, 114, 45, 99, 101, 114, 116])
    (h5 : cert ≠ [110, 111, 110, 99, 101] ∧ cert ≠ [112, 114, 111, 120, 105, 109, 105, 116, 121, 45, 114, 101, 103, 105, 115, 116, 114, 97, 114, 45, 99, 101, 114, 116])
    (hm : r.memTok = true ∧ r.memPlain = true ∧ r.memSigned = true)
    (hca : r.ca = some (ca ++ 0 :: junk)) (hcb : StrBody ca) (hcl : ca.length < 8192) (h0 : 0 ∉ ca)
    (hsb : StrBody serial) (hs0 : 0 ∉ serial) (hsl : serial.length ≤ 64)
    (hv : ca ∉ names ∧ serial ∉ names) (hf : r.masa = some f)
    (hs : f (voucherText nonce ca serial) = some s) (hl : s.length ≤ 16384) (hvc : vc ca = .ok ca') :
    ∃ o, voucherCb r (some (voucherReq nonce time cert)) (some (some serial)) = .ok o ∧ o.code = .success ∧
      o.voucher = some s ∧
      parseVoucher vc (.ok (voucherText nonce ca serial)) nonce serial = .res .none (some (some ca')) := by
  obtain ⟨d, e, hq⟩ := C128_client_request nonce time cert hn ht hc h1 h2 h3 h4 h5
  refine ⟨_, by
    rw [e]
    exact C128_voucher_partial r d nonce cert ca junk serial s f hq hm hca h0 hf
      (by rw [voucherText_length]; omega) hs hl, rfl, rfl, ?_⟩
  rw [← voucherDoc_text]
  refine (Voucher.C36_accepted_partial vc (voucherDoc nonce ca serial) (voucherDoc_ok _ _ _ hn hcb hsb) (by simp [voucherDoc])
    (by show [105, 101, 116, 102, 45, 118, 111, 117, 99, 104, 101, 114, 58, 118, 111, 117, 99, 104, 101, 114] ∉ names; decide) ?_ nonce serial ca' hs0 hsl h1).mpr ⟨Or.inr rfl, rfl, ca, rfl, hcl, hvc⟩
  intro n hnn f hf
  simp only [voucherDoc, List.mem_cons, List.not_mem_nil, or_false] at hf
  have hlen : ∀ n ∈ names, n.length ≠ 32 := by decide
  have hlog : ∀ n ∈ names, n ≠ [108, 111, 103, 103, 105, 110, 103] := by decide
  rcases hf with rfl | rfl | rfl | rfl
  · intro q; cases q; exact hlen _ hnn h1
  · intro q; cases q; exact hlog _ hnn rfl
  · intro q; cases q; exact hv.1 hnn
  · intro q; cases q; exact hv.2 hnn

/-- A server as it would have to be. -/
def demoReg : Reg := ⟨some ([77, 73, 73, 61] ++ [0]), some some, true, true, true⟩

example : voucherCb demoReg (some (voucherReq Voucher.sampleNonce [50, 48, 50, 48, 45, 48, 49, 45, 48, 49, 84, 48, 48, 58, 48, 48, 58, 48, 48, 90] [77, 73, 73, 66]))
    (some (some [65, 49])) = .ok ⟨.success, some (voucherText Voucher.sampleNonce [77, 73, 73, 61] [65, 49]),
      [.alloc .tok, .free .tok, .alloc .plain, .alloc .signed, .free .plain, .give .signed]⟩ ∧
    parseVoucher .ok (.ok (voucherText Voucher.sampleNonce [77, 73, 73, 61] [65, 49])) Voucher.sampleNonce [65, 49] =
      .res .none (some (some [77, 73, 73, 61])) := by decide +kernel

/-- The same request to the server as it is. -/
example : voucherCb { demoReg with ca := loadCa (some [77, 73, 73, 61]) }
    (some (voucherReq Voucher.sampleNonce [50, 48, 50, 48, 45, 48, 49, 45, 48, 49, 84, 48, 48, 58, 48, 48, 58, 48, 48, 90] [77, 73, 73, 66])) (some (some [65, 49])) = .error .read := by
  decide +kernel

/-- C128 is false in general: the nonce is copied into the voucher as it stands, even if it is not a
string.  A client with the serial number `A1` gets a signed voucher in which the client's reader
finds the serial number `B2`. -/
theorem C128_forged_serial_false :
    ∃ js t evs, voucherCb demoReg (some js) (some (some [65, 49])) = .ok ⟨.success, some t, evs⟩ ∧
      ∃ n ts, Jsmn.parse 100 t = .ok n ts ∧ retrieve t ts [115, 101, 114, 105, 97, 108, 45, 110, 117, 109, 98, 101, 114] 100 66 = .value [66, 50] :=
  ⟨[123, 34, 118, 34, 58, 123, 34, 110, 111, 110, 99, 101, 34, 58, 123, 34, 44, 123, 34, 115, 101, 114, 105, 97, 108, 45, 110, 117, 109, 98, 101, 114, 34, 58, 34, 66, 50, 34, 125, 44, 34, 112, 114, 111, 120, 105, 109, 105, 116, 121, 45, 114, 101, 103, 105, 115, 116, 114, 97, 114, 45, 99, 101, 114, 116, 34, 58, 34, 67, 34, 125, 125],
    voucherText [123, 34, 44, 123, 34, 115, 101, 114, 105, 97, 108, 45, 110, 117, 109, 98, 101, 114, 34, 58, 34, 66, 50, 34, 125] [77, 73, 73, 61] [65, 49],
    [.alloc .tok, .free .tok, .alloc .plain, .alloc .signed, .free .plain, .give .signed],
    by decide +kernel, found_spec _ _ _ (by decide +kernel)⟩

/-- C128: a request without a body makes the callbacks print a NULL pointer. -/
theorem C128_no_body_false (mem : Bool) (r : Reg) (peer : Option (Option (List Nat))) :
    statusCb mem none = .error .null ∧ voucherCb r none peer = .error .null := ⟨rfl, rfl⟩

end Verif.SrvBrski
