import Verif.VoucherModel
import Verif.JsmnProps
import Verif.ClientReqProps
import Verif.ClientRespProps
import Verif.HexProps

/-!
# Properties of the client's BRSKI operations (C36, C38, C61, C73, C74, C75)
-/
namespace Verif.Voucher
open Verif.ClientResp (Mode getResponse)
open Verif.ClientReq (Auth)
open Verif.Jsmn (Tok Ty Val Item Items Ws StrBody PrimText)

/-! ## Vouchers as lists of members -/

/-- The value of a member: a string or a number or literal. -/
inductive FVal
  | str (s : List Nat)
  | prim (s : List Nat)
deriving DecidableEq

def FVal.raw : FVal → List Nat
  | .str s => s
  | .prim s => s

def FVal.text : FVal → List Nat
  | .str s => 34 :: (s ++ [34])
  | .prim s => s

def FVal.Ok : FVal → Prop
  | .str s => StrBody s
  | .prim s => PrimText s

/-- A member `"key" : value` with the white space around its parts. -/
structure Field where
  w1 : List Nat
  key : List Nat
  w2 : List Nat
  w3 : List Nat
  val : FVal
  w4 : List Nat

structure Field.Ok (f : Field) : Prop where
  w1 : Ws f.w1
  key : StrBody f.key
  w2 : Ws f.w2
  w3 : Ws f.w3
  val : f.val.Ok
  w4 : Ws f.w4

/-- The member without the white space around it. -/
def Field.inner (f : Field) : List Nat :=
  34 :: (f.key ++ 34 :: (f.w2 ++ 58 :: (f.w3 ++ f.val.text)))

/-- Members separated by commas. -/
def fieldsText : List Field → List Nat
  | [] => []
  | [f] => f.w1 ++ (f.inner ++ f.w4)
  | f :: g :: fs => f.w1 ++ (f.inner ++ (f.w4 ++ 44 :: fieldsText (g :: fs)))

/-- The value of the first member with this name. -/
def lookup (fs : List Field) (name : List Nat) : Option (List Nat) :=
  (fs.find? (fun f => f.key == name)).map (fun f => f.val.raw)

/-- A document `{"name": {members}}`, the form of RFC 8366. -/
structure Doc where
  w0 : List Nat
  wa : List Nat
  name : List Nat
  wb : List Nat
  wc : List Nat
  fields : List Field
  wd : List Nat
  we : List Nat

structure Doc.Ok (d : Doc) : Prop where
  w0 : Ws d.w0
  wa : Ws d.wa
  name : StrBody d.name
  wb : Ws d.wb
  wc : Ws d.wc
  wd : Ws d.wd
  we : Ws d.we
  some : d.fields ≠ []
  fields : ∀ f ∈ d.fields, f.Ok

def Doc.inner (d : Doc) : List Nat :=
  34 :: (d.name ++ 34 :: (d.wb ++ 58 :: (d.wc ++ 123 :: (fieldsText d.fields ++ [125]))))

def Doc.text (d : Doc) : List Nat :=
  d.w0 ++ ((123 :: (d.wa ++ (d.inner ++ d.wd) ++ [125])) ++ d.we)

/-! ### Their tokens -/

def keyTok (p : Nat) (f : Field) : Tok :=
  ⟨.string, p + f.w1.length + 1, some (p + f.w1.length + 1 + f.key.length), 1⟩

/-- Where the value begins. -/
def valPos (p : Nat) (f : Field) : Nat :=
  p + f.w1.length + 1 + f.key.length + 1 + f.w2.length + 1 + f.w3.length

def valTok (p : Nat) (f : Field) : Tok :=
  match f.val with
  | .str s => ⟨.string, valPos p f + 1, some (valPos p f + 1 + s.length), 0⟩
  | .prim s => ⟨.primitive, valPos p f, some (valPos p f + s.length), 0⟩

def fieldsToks : Nat → List Field → List Tok
  | _, [] => []
  | p, [f] => [keyTok p f, valTok p f]
  | p, f :: g :: fs => keyTok p f :: valTok p f ::
      fieldsToks (p + f.w1.length + f.inner.length + f.w4.length + 1) (g :: fs)

theorem fieldsToks_length (p : Nat) (fs : List Field) :
    (fieldsToks p fs).length = 2 * fs.length := by
  induction fs generalizing p with
  | nil => rfl
  | cons f fs ih =>
    cases fs with
    | nil => rfl
    | cons g fs => simp [fieldsToks, ih]; omega

theorem item_field (p : Nat) (f : Field) (h : f.Ok) :
    Item true (p + f.w1.length) f.inner [keyTok p f, valTok p f] := by
  refine Item.member (p + f.w1.length) f.key f.w2 f.w3 f.val.text [valTok p f] h.key h.w2 h.w3 ?_
  have hv := h.val
  unfold valTok
  cases hf : f.val with
  | str s =>
    rw [hf] at hv
    exact Val.str _ s hv
  | prim s =>
    rw [hf] at hv
    exact Val.prim _ s hv

theorem items_fields (p : Nat) (fs : List Field) (hne : fs ≠ []) (h : ∀ f ∈ fs, f.Ok) :
    Items true p (fieldsText fs) fs.length (fieldsToks p fs) := by
  induction fs generalizing p with
  | nil => exact absurd rfl hne
  | cons f fs ih =>
    have hf := h f (by simp)
    cases fs with
    | nil => exact Items.one true p f.w1 f.inner f.w4 _ hf.w1 hf.w4 (item_field p f hf)
    | cons g fs =>
      exact Items.more true p f.w1 f.inner f.w4 (fieldsText (g :: fs)) (g :: fs).length
        [keyTok p f, valTok p f] _ hf.w1 hf.w4 (item_field p f hf)
        (ih _ (by simp) (fun x hx => h x (by simp at hx ⊢; right; exact hx)))

/-- Where the members begin. -/
def Doc.pos (d : Doc) : Nat :=
  d.w0.length + 1 + d.wa.length + 1 + d.name.length + 1 + d.wb.length + 1 + d.wc.length + 1

def Doc.outer (d : Doc) : Tok :=
  ⟨.object, d.w0.length, some (d.w0.length + (d.wa ++ (d.inner ++ d.wd)).length + 2), 1⟩
def Doc.nameTok (d : Doc) : Tok :=
  ⟨.string, d.w0.length + 1 + d.wa.length + 1,
    some (d.w0.length + 1 + d.wa.length + 1 + d.name.length), 1⟩
def Doc.body (d : Doc) : Tok :=
  ⟨.object, d.pos - 1, some (d.pos - 1 + (fieldsText d.fields).length + 2), d.fields.length⟩

def Doc.toks (d : Doc) : List Tok := d.outer :: d.nameTok :: d.body :: fieldsToks d.pos d.fields

theorem doc_val (d : Doc) (h : d.Ok) :
    Val d.w0.length (123 :: (d.wa ++ (d.inner ++ d.wd) ++ [125])) d.toks := by
  have hi := items_fields d.pos d.fields h.some h.fields
  have hb : Val (d.w0.length + 1 + d.wa.length + 1 + d.name.length + 1 + d.wb.length + 1 + d.wc.length)
      (123 :: (fieldsText d.fields ++ [125])) (d.body :: fieldsToks d.pos d.fields) :=
    Val.cont true _ (fieldsText d.fields) d.fields.length (fieldsToks d.pos d.fields) hi
  have hm : Item true (d.w0.length + 1 + d.wa.length) d.inner
      (d.nameTok :: d.body :: fieldsToks d.pos d.fields) :=
    Item.member _ d.name d.wb d.wc _ _ h.name h.wb h.wc hb
  exact Val.cont true d.w0.length _ 1 _ (Items.one true _ d.wa d.inner d.wd _ h.wa h.wd hm)

theorem doc_parse (d : Doc) (h : d.Ok) (hn : d.fields.length ≤ 48) :
    Jsmn.parse tokCount d.text = .ok d.toks.length d.toks := by
  refine Jsmn.C72_json_text tokCount d.w0 _ d.we d.toks h.w0 h.we (doc_val d h) ?_
  simp [Doc.toks, fieldsToks_length, tokCount]
  omega

/-! ### Looking up -/

theorem slice_at (js a b c : List Nat) (t : Tok) (hj : js = a ++ (b ++ c)) (h1 : t.start = a.length)
    (h2 : t.fin = some (a.length + b.length)) : slice js t = b := by
  subst hj
  simp [slice, h1, h2]

theorem slice_key (js pre post : List Nat) (p : Nat) (f : Field)
    (hj : js = pre ++ (f.w1 ++ (f.inner ++ post))) (hp : p = pre.length) :
    slice js (keyTok p f) = f.key := by
  refine slice_at js (pre ++ (f.w1 ++ [34])) f.key
    (34 :: (f.w2 ++ 58 :: (f.w3 ++ f.val.text)) ++ post) _ ?_ ?_ ?_
  · rw [hj]; simp [Field.inner]
  · simp [keyTok, hp]; omega
  · simp [keyTok, hp]; omega

theorem slice_val (js pre post : List Nat) (p : Nat) (f : Field)
    (hj : js = pre ++ (f.w1 ++ (f.inner ++ post))) (hp : p = pre.length) :
    slice js (valTok p f) = f.val.raw := by
  unfold valTok
  cases hf : f.val with
  | str s =>
    refine slice_at js (pre ++ (f.w1 ++ (34 :: (f.key ++ 34 :: (f.w2 ++ 58 :: (f.w3 ++ [34]))))))
      s (34 :: post) _ ?_ ?_ ?_
    · rw [hj]; simp [Field.inner, hf, FVal.text]
    · simp [valPos, hp]; omega
    · simp [valPos, hp]; omega
  | prim s =>
    refine slice_at js (pre ++ (f.w1 ++ (34 :: (f.key ++ 34 :: (f.w2 ++ 58 :: f.w3))))) s post _ ?_ ?_ ?_
    · rw [hj]; simp [Field.inner, hf, FVal.text]
    · simp [valPos, hp]; omega
    · simp [valPos, hp]; omega

/-- No string value has this text. -/
def NotAValue (fs : List Field) (name : List Nat) : Prop := ∀ f ∈ fs, f.val ≠ .str name

theorem jsoneq_val (js : List Nat) (name : List Nat) (p : Nat) (f : Field)
    (hs : slice js (valTok p f) = f.val.raw) (hv : f.val ≠ .str name) :
    jsoneq js (valTok p f) name = false := by
  unfold jsoneq
  rw [hs]
  unfold valTok
  cases hf : f.val with
  | prim s => simp
  | str s =>
    have : s ≠ name := fun e => hv (by rw [hf, e])
    simp [FVal.raw, this]

theorem find_fields (js name : List Nat) (cap max : Nat) (fs : List Field) :
    ∀ (pre post : List Nat) (p i : Nat), js = pre ++ (fieldsText fs ++ post) → p = pre.length →
      NotAValue fs name →
      find js name cap max i (fieldsToks p fs) =
        match lookup fs name with
        | none => .absent
        | some v => .value (v.take (max - 1)) := by
  induction fs with
  | nil => intro pre post p i _ _ _; rfl
  | cons f fs ih =>
    intro pre post p i hj hp hv
    have hnv := hv f (by simp)
    cases fs with
    | nil =>
      simp only [fieldsText] at hj
      have hj' : js = pre ++ (f.w1 ++ (f.inner ++ (f.w4 ++ post))) := by rw [hj]; simp
      have hk := slice_key js pre _ p f hj' hp
      have hs := slice_val js pre _ p f hj' hp
      have hjv := jsoneq_val js name p f hs hnv
      have hjk : jsoneq js (keyTok p f) name = (f.key == name) := by
        unfold jsoneq; rw [hk]; simp [keyTok]
      simp only [fieldsToks, find, hjk, hjv]
      by_cases hkn : f.key = name
      · simp [lookup, hkn, hs]
      · simp [lookup, hkn]
    | cons g fs =>
      simp only [fieldsText] at hj
      have hj' : js = pre ++ (f.w1 ++ (f.inner ++ (f.w4 ++ 44 :: (fieldsText (g :: fs) ++ post)))) := by
        rw [hj]; simp
      have hk := slice_key js pre _ p f hj' hp
      have hs := slice_val js pre _ p f hj' hp
      have hjv := jsoneq_val js name p f hs hnv
      have hjk : jsoneq js (keyTok p f) name = (f.key == name) := by
        unfold jsoneq; rw [hk]; simp [keyTok]
      have hi := ih (pre ++ (f.w1 ++ (f.inner ++ (f.w4 ++ [44])))) post
        (p + f.w1.length + f.inner.length + f.w4.length + 1) (i + 1 + 1) (by rw [hj']; simp)
        (by simp [hp]; omega) (fun x hx => hv x (by simp at hx ⊢; right; exact hx))
      simp only [fieldsToks, find, hjk, hjv]
      by_cases hkn : f.key = name
      · simp [lookup, hkn, hs]
      · have hl : lookup (f :: g :: fs) name = lookup (g :: fs) name := by
          simp [lookup, hkn]
        rw [hl]
        simp [hkn, hi]

theorem retrieve_doc (d : Doc) (name : List Nat) (cap max : Nat)
    (hn : d.name ≠ name) (hv : NotAValue d.fields name) :
    retrieve d.text d.toks name cap max =
      match lookup d.fields name with
      | none => .absent
      | some v => .value (v.take (max - 1)) := by
  unfold retrieve Doc.toks
  simp only [List.drop_succ_cons, List.drop_zero]
  have hname : slice d.text d.nameTok = d.name := by
    refine slice_at d.text (d.w0 ++ (123 :: (d.wa ++ [34]))) d.name
      (34 :: (d.wb ++ 58 :: (d.wc ++ 123 :: (fieldsText d.fields ++ [125]))) ++ (d.wd ++ 125 :: d.we))
      _ ?_ ?_ ?_
    · simp [Doc.text, Doc.inner]
    · simp [Doc.nameTok]; omega
    · simp [Doc.nameTok]; omega
  have h1 : jsoneq d.text d.nameTok name = false := by
    unfold jsoneq
    rw [hname]
    simp [hn]
  have h2 : jsoneq d.text d.body name = false := by
    simp [jsoneq, Doc.body]
  simp only [find, h1, h2]
  exact find_fields d.text name cap max d.fields
    (d.w0 ++ (123 :: (d.wa ++ (34 :: (d.name ++ 34 :: (d.wb ++ 58 :: (d.wc ++ [123])))))))
    (125 :: (d.wd ++ 125 :: d.we)) d.pos _ (by simp [Doc.text, Doc.inner]) (by simp [Doc.pos]; omega) hv

/-! ## C36 -/

/-- The decision on a voucher by its three members: the pledge's serial number is `serial`, the
nonce of its request `sent`. -/
def verdict (vc : List Nat → Except EstErr (List Nat)) (nonce ser cert : Option (List Nat))
    (sent serial : List Nat) : PRes :=
  if nonce.any (fun v => decide (32 < v.length)) then .res .clientBrskiNonceTooLarge none
  else if nonce ≠ none ∧ nonce ≠ some sent then .res .clientBrskiNonceMismatch none
  else if ser = none then .res .clientBrskiSerialNumMissing none
  else if 64 < (ser.getD []).length then .res .clientBrskiSerialNumTooLarge none
  else if serial.length < (ser.getD []).length then .ub
  else if ser ≠ some serial then .res .clientBrskiSerialNumMismatch none
  else
    match cert with
    | none => .res .noCert none
    | some v =>
      if 8192 ≤ v.length then .ub
      else
        match vc v with
        | .ok t => .res .none (some (some t))
        | .error e => .res e (some none)

/-- The three names the client looks for. -/
def names : List (List Nat) := [[110, 111, 110, 99, 101], [115, 101, 114, 105, 97, 108, 45, 110, 117, 109, 98, 101, 114], [112, 105, 110, 110, 101, 100, 45, 100, 111, 109, 97, 105, 110, 45, 99, 101, 114, 116]]

theorem serial_cmp (serial v : List Nat) (h0 : 0 ∉ serial) (hl : v.length ≤ serial.length) :
    ((serial ++ [0]).take (v.length + 1) = v ++ [0]) ↔ v = serial := by
  constructor
  · intro h
    rcases Nat.lt_or_ge v.length serial.length with q | q
    · exfalso
      rw [List.take_append_of_le_length (by omega)] at h
      apply h0
      have : (0 : Nat) ∈ serial.take (v.length + 1) := by rw [h]; simp
      exact List.mem_of_mem_take this
    · have e : v.length = serial.length := by omega
      rw [List.take_of_length_le (by simp; omega)] at h
      exact (List.append_cancel_right h).symm
  · rintro rfl
    rw [List.take_of_length_le (by simp)]

/-- C36, the part that holds: a signed voucher in the form of RFC 8366 with up to 48 members,
any white space and escapes, none of whose string values is one of the three member names, is
decided by its members: an unequal or oversized nonce, a missing, unequal or oversized serial
number and a missing certificate are refused with their own codes and leave the stored
certificate alone.  The two undefined outcomes are the ones of the `_false` theorems below. -/
theorem C36_voucher_partial (vc : List Nat → Except EstErr (List Nat)) (d : Doc) (h : d.Ok)
    (hn : d.fields.length ≤ 48) (hname : d.name ∉ names)
    (hv : ∀ n ∈ names, NotAValue d.fields n) (sent serial : List Nat) (hserial : 0 ∉ serial)
    (_hsent : sent.length = 32) :
    parseVoucher vc (.ok d.text) sent serial =
      verdict vc (lookup d.fields [110, 111, 110, 99, 101]) (lookup d.fields [115, 101, 114, 105, 97, 108, 45, 110, 117, 109, 98, 101, 114])
        (lookup d.fields [112, 105, 110, 110, 101, 100, 45, 100, 111, 109, 97, 105, 110, 45, 99, 101, 114, 116]) sent serial := by
  have r : ∀ n ∈ names, ∀ max, retrieve d.text d.toks n tokCount max =
      match lookup d.fields n with
      | none => .absent
      | some v => .value (v.take (max - 1)) := fun n hm max =>
    retrieve_doc d n tokCount max (fun e => hname (e ▸ hm)) (hv n hm)
  have r1 := r [110, 111, 110, 99, 101] (by decide) 34
  have r2 := r [115, 101, 114, 105, 97, 108, 45, 110, 117, 109, 98, 101, 114] (by decide) 66
  have r3 := r [112, 105, 110, 110, 101, 100, 45, 100, 111, 109, 97, 105, 110, 45, 99, 101, 114, 116] (by decide) 8193
  have hN : checkNonce d.text d.toks sent = some
      (if (lookup d.fields [110, 111, 110, 99, 101]).any (fun v => decide (32 < v.length)) then
        .clientBrskiNonceTooLarge
      else if lookup d.fields [110, 111, 110, 99, 101] ≠ none ∧ lookup d.fields [110, 111, 110, 99, 101] ≠ some sent then
        .clientBrskiNonceMismatch else .none) := by
    unfold checkNonce
    rw [r1]
    cases lookup d.fields [110, 111, 110, 99, 101] with
    | none => simp
    | some v =>
      simp only [Option.any_some, decide_eq_true_eq]
      by_cases hl : 32 < v.length
      · rw [if_pos (by simp; omega), if_pos hl]
      · rw [if_neg (by simp; omega), if_neg hl, List.take_of_length_le (by omega)]
        by_cases he : v = sent
        · simp [he]
        · simp [he]
  have hS : checkSerial d.text d.toks serial =
      (if lookup d.fields [115, 101, 114, 105, 97, 108, 45, 110, 117, 109, 98, 101, 114] = none then some .clientBrskiSerialNumMissing
      else if 64 < ((lookup d.fields [115, 101, 114, 105, 97, 108, 45, 110, 117, 109, 98, 101, 114]).getD []).length then
        some .clientBrskiSerialNumTooLarge
      else if serial.length < ((lookup d.fields [115, 101, 114, 105, 97, 108, 45, 110, 117, 109, 98, 101, 114]).getD []).length then none
      else if lookup d.fields [115, 101, 114, 105, 97, 108, 45, 110, 117, 109, 98, 101, 114] ≠ some serial then
        some .clientBrskiSerialNumMismatch
      else some .none) := by
    unfold checkSerial
    rw [r2]
    cases lookup d.fields [115, 101, 114, 105, 97, 108, 45, 110, 117, 109, 98, 101, 114] with
    | none => simp
    | some v =>
      simp only [Option.getD_some]
      rw [if_neg (by simp : ¬ (some v = none))]
      by_cases hl : 64 < v.length
      · rw [if_pos (by simp; omega), if_pos hl]
      · rw [if_neg (by simp; omega), if_neg hl, List.take_of_length_le (by omega)]
        by_cases hq : serial.length < v.length
        · rw [if_pos (by omega), if_pos hq]
        · rw [if_neg (by omega), if_neg hq]
          have := serial_cmp serial v hserial (by omega)
          by_cases he : v = serial
          · rw [if_pos (this.mpr he), if_neg (by simp [he])]
          · rw [if_neg (fun q => he (this.mp q)), if_pos (by simp [he])]
  have hC : takeCacert vc d.text d.toks =
      (match lookup d.fields [112, 105, 110, 110, 101, 100, 45, 100, 111, 109, 97, 105, 110, 45, 99, 101, 114, 116] with
      | none => .res .noCert none
      | some v =>
        if 8192 ≤ v.length then .ub
        else
          match vc v with
          | .ok t => .res .none (some (some t))
          | .error e => .res e (some none)) := by
    unfold takeCacert
    rw [r3]
    cases lookup d.fields [112, 105, 110, 110, 101, 100, 45, 100, 111, 109, 97, 105, 110, 45, 99, 101, 114, 116] with
    | none => rfl
    | some v =>
      simp only
      by_cases hl : 8192 ≤ v.length
      · rw [if_pos (by simp; omega), if_pos hl]
      · rw [if_neg (by simp; omega), if_neg hl, List.take_of_length_le (by omega)]
        cases vc v <;> rfl
  unfold parseVoucher
  simp only
  rw [doc_parse d h hn]
  simp only [checkTokens, hN, hS, hC, verdict]
  clear r r1 r2 r3 hN hS hC
  generalize lookup d.fields [110, 111, 110, 99, 101] = N
  generalize lookup d.fields [115, 101, 114, 105, 97, 108, 45, 110, 117, 109, 98, 101, 114] = S
  generalize lookup d.fields [112, 105, 110, 110, 101, 100, 45, 100, 111, 109, 97, 105, 110, 45, 99, 101, 114, 116] = C
  by_cases a1 : N.any (fun v => decide (32 < v.length)) = true
  · simp only [if_pos a1]
  simp only [if_neg a1]
  by_cases a2 : N ≠ none ∧ N ≠ some sent
  · simp only [if_pos a2]
  simp only [if_neg a2]
  by_cases a3 : S = none
  · simp only [if_pos a3]
  simp only [if_neg a3]
  by_cases a4 : 64 < (S.getD []).length
  · simp only [if_pos a4]
  simp only [if_neg a4]
  by_cases a5 : serial.length < (S.getD []).length
  · simp only [if_pos a5]
  simp only [if_neg a5]
  by_cases a6 : S ≠ some serial
  · simp only [if_pos a6]
  simp only [if_neg a6]

/-- C36: acceptance.  The voucher is accepted exactly when the nonce, if there is one, is the one
sent, the serial number is the pledge's and there is a certificate that passes the check. -/
theorem C36_accepted_partial (vc : List Nat → Except EstErr (List Nat)) (d : Doc) (h : d.Ok)
    (hn : d.fields.length ≤ 48) (hname : d.name ∉ names)
    (hv : ∀ n ∈ names, NotAValue d.fields n) (sent serial c : List Nat) (hserial : 0 ∉ serial)
    (hl : serial.length ≤ 64) (hsent : sent.length = 32) :
    parseVoucher vc (.ok d.text) sent serial = .res .none (some (some c)) ↔
      (lookup d.fields [110, 111, 110, 99, 101] = none ∨ lookup d.fields [110, 111, 110, 99, 101] = some sent) ∧
      lookup d.fields [115, 101, 114, 105, 97, 108, 45, 110, 117, 109, 98, 101, 114] = some serial ∧
      ∃ v, lookup d.fields [112, 105, 110, 110, 101, 100, 45, 100, 111, 109, 97, 105, 110, 45, 99, 101, 114, 116] = some v ∧ v.length < 8192 ∧ vc v = .ok c := by
  rw [C36_voucher_partial vc d h hn hname hv sent serial hserial hsent]
  generalize lookup d.fields [110, 111, 110, 99, 101] = N
  generalize lookup d.fields [115, 101, 114, 105, 97, 108, 45, 110, 117, 109, 98, 101, 114] = S
  generalize lookup d.fields [112, 105, 110, 110, 101, 100, 45, 100, 111, 109, 97, 105, 110, 45, 99, 101, 114, 116] = C
  constructor
  · intro e
    unfold verdict at e
    by_cases a1 : N.any (fun v => decide (32 < v.length)) = true
    · rw [if_pos a1] at e; simp at e
    rw [if_neg a1] at e
    by_cases a2 : N ≠ none ∧ N ≠ some sent
    · rw [if_pos a2] at e; simp at e
    rw [if_neg a2] at e
    by_cases a3 : S = none
    · rw [if_pos a3] at e; simp at e
    rw [if_neg a3] at e
    by_cases a4 : 64 < (S.getD []).length
    · rw [if_pos a4] at e; simp at e
    rw [if_neg a4] at e
    by_cases a5 : serial.length < (S.getD []).length
    · rw [if_pos a5] at e; simp at e
    rw [if_neg a5] at e
    by_cases a6 : S ≠ some serial
    · rw [if_pos a6] at e; simp at e
    rw [if_neg a6] at e
    refine ⟨?_, by simpa using a6, ?_⟩
    · cases N with
      | none => simp
      | some v =>
        right
        by_cases q : some v = some sent
        · exact q
        · exact absurd ⟨by simp, q⟩ a2
    · cases C with
      | none => simp at e
      | some v =>
        simp only at e
        refine ⟨v, rfl, ?_⟩
        by_cases a7 : 8192 ≤ v.length
        · rw [if_pos a7] at e; simp at e
        rw [if_neg a7] at e
        refine ⟨by omega, ?_⟩
        cases hvc : vc v with
        | ok t => rw [hvc] at e; simp at e; rw [e]
        | error x => rw [hvc] at e; simp at e
  · rintro ⟨h1, h2, v, h3, h4, h5⟩
    subst h2 h3
    unfold verdict
    rw [if_neg, if_neg, if_neg (by simp), if_neg (by simp; omega), if_neg (by simp), if_neg (by simp)]
    · simp only
      rw [if_neg (by omega), h5]
    · rintro ⟨q1, q2⟩
      rcases h1 with q | q
      · exact q1 q
      · exact q2 q
    · rcases h1 with q | q
      · simp [q]
      · simp [q, hsent]

/-- C36, for every message: if the voucher is accepted its signature was verified, its content is
a list of tokens, and the text behind the first token `serial-number` is the pledge's serial
number, the one behind the first `nonce` is the nonce sent. -/
theorem C36_accepted_any (vc : List Nat → Except EstErr (List Nat))
    (verified : Except EstErr (List Nat)) (sent serial : List Nat) (ca) (hserial : 0 ∉ serial)
    (hve : verified ≠ .error .none) (hvc0 : ∀ t, vc t ≠ .error .none)
    (h : parseVoucher vc verified sent serial = .res .none ca) :
    ∃ js n ts, verified = .ok js ∧ Jsmn.parse 100 js = .ok n ts ∧
      retrieve js ts [115, 101, 114, 105, 97, 108, 45, 110, 117, 109, 98, 101, 114] 100 66 = .value serial ∧
      (retrieve js ts [110, 111, 110, 99, 101] 100 34 = .absent ∨ retrieve js ts [110, 111, 110, 99, 101] 100 34 = .value sent) ∧
      ∃ v t, retrieve js ts [112, 105, 110, 110, 101, 100, 45, 100, 111, 109, 97, 105, 110, 45, 99, 101, 114, 116] 100 8193 = .value v ∧ vc v = .ok t ∧
        ca = some (some t) := by
  unfold parseVoucher at h
  cases verified with
  | error e => simp at h; exact absurd (by rw [h.1]) hve
  | ok js =>
    simp only at h
    cases hp : Jsmn.parse tokCount js with
    | nomem => rw [hp] at h; simp at h
    | inval => rw [hp] at h; simp at h
    | part => rw [hp] at h; simp at h
    | undef => rw [hp] at h; simp at h
    | hang => rw [hp] at h; simp at h
    | ok n ts =>
      rw [hp] at h
      simp only [checkTokens] at h
      have hnonce : checkNonce js ts sent = some .none := by
        cases hc : checkNonce js ts sent with
        | none => rw [hc] at h; simp at h
        | some e =>
          rw [hc] at h
          cases e <;> first | rfl | (simp at h)
      rw [hnonce] at h
      simp only at h
      have hser : checkSerial js ts serial = some .none := by
        cases hc : checkSerial js ts serial with
        | none => rw [hc] at h; simp at h
        | some e =>
          rw [hc] at h
          cases e <;> first | rfl | (simp at h)
      rw [hser] at h
      simp only at h
      refine ⟨js, n, ts, rfl, hp, ?_, ?_, ?_⟩
      · unfold checkSerial at hser
        cases hr : retrieve js ts [115, 101, 114, 105, 97, 108, 45, 110, 117, 109, 98, 101, 114] tokCount 66 with
        | over => rw [hr] at hser; simp at hser
        | absent => rw [hr] at hser; simp at hser
        | value v =>
          rw [hr] at hser
          simp only at hser
          by_cases b1 : v.length > 64
          · rw [if_pos b1] at hser; simp at hser
          rw [if_neg b1] at hser
          by_cases b2 : v.length > serial.length
          · rw [if_pos b2] at hser; simp at hser
          rw [if_neg b2] at hser
          by_cases b3 : (serial ++ [0]).take (v.length + 1) = v ++ [0]
          · have := (serial_cmp serial v hserial (by omega)).mp b3
            rw [← this]
            exact hr
          · rw [if_neg b3] at hser; simp at hser
      · unfold checkNonce at hnonce
        cases hr : retrieve js ts [110, 111, 110, 99, 101] tokCount 34 with
        | over => rw [hr] at hnonce; simp at hnonce
        | absent => left; exact hr
        | value v =>
          rw [hr] at hnonce
          simp only at hnonce
          by_cases b1 : v.length > 32
          · rw [if_pos b1] at hnonce; simp at hnonce
          rw [if_neg b1] at hnonce
          by_cases b2 : v = sent
          · right; rw [← b2]; exact hr
          · rw [if_neg b2] at hnonce; simp at hnonce
      · unfold takeCacert at h
        cases hr : retrieve js ts [112, 105, 110, 110, 101, 100, 45, 100, 111, 109, 97, 105, 110, 45, 99, 101, 114, 116] tokCount 8193 with
        | over => rw [hr] at h; simp at h
        | absent => rw [hr] at h; simp at h
        | value v =>
          rw [hr] at h
          simp only at h
          by_cases b1 : v.length + 1 > 8192
          · rw [if_pos b1] at h; simp at h
          rw [if_neg b1] at h
          refine ⟨v, ?_⟩
          cases hvc : vc v with
          | error e => rw [hvc] at h; simp at h; exact absurd (by rw [hvc, h.1]) (hvc0 v)
          | ok t =>
            rw [hvc] at h
            simp at h
            exact ⟨t, hr, rfl, h.symm⟩

/-- C36: nothing is accepted and nothing changed without a verified signature. -/
theorem C36_signature (vc : List Nat → Except EstErr (List Nat)) (e : EstErr) (sent serial : List Nat) :
    parseVoucher vc (.error e) sent serial = .res e none := rfl

/-! ### A concrete voucher -/

def sampleNonce : List Nat := [48, 49, 50, 51, 52, 53, 54, 55, 56, 57, 97, 98, 99, 100, 101, 102, 48, 49, 50, 51, 52, 53, 54, 55, 56, 57, 97, 98, 99, 100, 101, 102]

/-- `{"ietf-voucher:voucher": {"nonce": "0123…", "serial-number":"ab12","pinned-domain-cert":"MII=",
"ok":true}}` -/
def sample : Doc where
  w0 := []
  wa := []
  name := [105, 101, 116, 102, 45, 118, 111, 117, 99, 104, 101, 114, 58, 118, 111, 117, 99, 104, 101, 114]
  wb := []
  wc := [32]
  fields := [⟨[13, 10], [110, 111, 110, 99, 101], [], [32], .str sampleNonce, []⟩,
    ⟨[], [115, 101, 114, 105, 97, 108, 45, 110, 117, 109, 98, 101, 114], [], [], .str [97, 98, 49, 50], []⟩,
    ⟨[], [112, 105, 110, 110, 101, 100, 45, 100, 111, 109, 97, 105, 110, 45, 99, 101, 114, 116], [], [], .str [77, 73, 73, 61], []⟩,
    ⟨[], [111, 107], [], [], .prim [116, 114, 117, 101], [10]⟩]
  wd := []
  we := []

theorem strBody_plain (s : List Nat) (h : ∀ c ∈ s, c ≠ 0 ∧ c ≠ 34 ∧ c ≠ 92) : StrBody s := by
  induction s with
  | nil => exact .nil
  | cons c s ih =>
    have hc := h c (by simp)
    exact .char c s hc.1 hc.2.1 hc.2.2 (ih (fun d hd => h d (by simp [hd])))

theorem ws_dec (w : List Nat) (h : w.all (fun c => c == 9 || c == 13 || c == 10 || c == 32) = true) :
    Ws w := by
  intro c hc
  have := List.all_eq_true.mp h c hc
  simp at this
  omega

theorem sample_ok : sample.Ok := by
  refine ⟨ws_dec _ rfl, ws_dec _ rfl, strBody_plain _ (by decide), ws_dec _ rfl, ws_dec _ rfl,
    ws_dec _ rfl, ws_dec _ rfl, by simp [sample], ?_⟩
  intro f hf
  simp only [sample, List.mem_cons, List.not_mem_nil, or_false] at hf
  rcases hf with rfl | rfl | rfl | rfl
  · exact ⟨ws_dec _ rfl, strBody_plain _ (by decide), ws_dec _ rfl, ws_dec _ rfl,
      strBody_plain _ (by decide), ws_dec _ rfl⟩
  · exact ⟨ws_dec _ rfl, strBody_plain _ (by decide), ws_dec _ rfl, ws_dec _ rfl,
      strBody_plain _ (by decide), ws_dec _ rfl⟩
  · exact ⟨ws_dec _ rfl, strBody_plain _ (by decide), ws_dec _ rfl, ws_dec _ rfl,
      strBody_plain _ (by decide), ws_dec _ rfl⟩
  · exact ⟨ws_dec _ rfl, strBody_plain _ (by decide), ws_dec _ rfl, ws_dec _ rfl,
      (by unfold FVal.Ok PrimText; decide), ws_dec _ rfl⟩

theorem sample_values : ∀ n ∈ names, NotAValue sample.fields n := by
  unfold NotAValue
  decide

example : parseVoucher .ok (.ok sample.text) sampleNonce [97, 98, 49, 50] =
    .res .none (some (some [77, 73, 73, 61])) :=
  (C36_accepted_partial .ok sample sample_ok (by decide) (by decide) sample_values sampleNonce [97, 98, 49, 50]
    [77, 73, 73, 61] (by decide) (by decide) rfl).mpr ⟨Or.inr (by decide), by decide, [77, 73, 73, 61], by decide, by decide, rfl⟩

example : parseVoucher .ok (.ok sample.text) sampleNonce [97, 98, 49, 51] =
    .res .clientBrskiSerialNumMismatch none := by
  rw [C36_voucher_partial .ok sample sample_ok (by decide) (by decide) sample_values sampleNonce [97, 98, 49, 51]
    (by decide) rfl]
  decide

/-! ### Where it fails -/

/-- C36 is false in general: a value that reads like a member name is taken for the member.  The
pledge `ab12` accepts a voucher whose serial number is `other`, because the value of `note` is
`serial-number` and the next token is `ab12`. -/
theorem C36_value_as_name_false :
    parseVoucher .ok (.ok [123, 34, 118, 34, 58, 123, 34, 110, 111, 116, 101, 34, 58, 34, 115, 101, 114, 105, 97, 108, 45, 110, 117, 109, 98, 101, 114, 34, 44, 34, 97, 98, 49, 50, 34, 58, 49, 44, 34, 115, 101, 114, 105, 97, 108, 45, 110, 117, 109, 98, 101, 114, 34, 58, 34, 111, 116, 104, 101, 114, 34, 44, 34, 112, 105, 110, 110, 101, 100, 45, 100, 111, 109, 97, 105, 110, 45, 99, 101, 114, 116, 34, 58, 34, 77, 73, 73, 61, 34, 125, 125])
      sampleNonce [97, 98, 49, 50] = .res .none (some (some [77, 73, 73, 61])) := by decide +kernel

/-- C36: the members of any object in the text count, not those of the voucher: the nonce of the
voucher is wrong, but an object before it has the right one. -/
theorem C36_nested_member_false :
    parseVoucher .ok (.ok [123, 34, 118, 34, 58, 123, 34, 120, 34, 58, 123, 34, 110, 111, 110, 99, 101, 34, 58, 34, 48, 49, 50, 51, 52, 53, 54, 55, 56, 57, 97, 98, 99, 100, 101, 102, 48, 49, 50, 51, 52, 53, 54, 55, 56, 57, 97, 98, 99, 100, 101, 102, 34, 125, 44, 34, 110, 111, 110, 99, 101, 34, 58, 34, 119, 114, 111, 110, 103, 34, 44, 34, 115, 101, 114, 105, 97, 108, 45, 110, 117, 109, 98, 101, 114, 34, 58, 34, 97, 98, 49, 50, 34, 44, 34, 112, 105, 110, 110, 101, 100, 45, 100, 111, 109, 97, 105, 110, 45, 99, 101, 114, 116, 34, 58, 34, 77, 73, 73, 61, 34, 125, 125])
      sampleNonce [97, 98, 49, 50] = .res .none (some (some [77, 73, 73, 61])) := by decide +kernel

/-- C36: a serial number longer than the pledge's own makes `memcmp` read behind the copy of the
pledge's. -/
theorem C36_serial_overread_false :
    parseVoucher .ok (.ok [123, 34, 118, 34, 58, 123, 34, 115, 101, 114, 105, 97, 108, 45, 110, 117, 109, 98, 101, 114, 34, 58, 34, 97, 98, 49, 50, 51, 34, 44, 34, 112, 105, 110, 110, 101, 100, 45, 100, 111, 109, 97, 105, 110, 45, 99, 101, 114, 116, 34, 58, 34, 77, 73, 73, 61, 34, 125, 125])
      sampleNonce [97, 98, 49, 50] = .ub := by decide +kernel

/-- C36: if the text has 100 tokens and the last one is a name, the token behind the array is
read. -/
theorem C36_token_overread_false :
    parseVoucher .ok (.ok ([91] ++ (List.replicate 98 [48, 44]).flatten ++ [34, 110, 111, 110, 99, 101, 34, 93]))
      sampleNonce [97, 98, 49, 50] = .ub := by decide +kernel

/-- C36: a certificate of 8192 or more characters is written behind the end of the array on the
stack, whatever it is. -/
theorem C36_cacert_overflow_false (vc : List Nat → Except EstErr (List Nat)) (sent serial v : List Nat)
    (h : 8192 ≤ v.length) (hs : serial.length ≤ 64) :
    verdict vc none (some serial) (some v) sent serial = .ub := by
  unfold verdict
  simp [h]
  omega

/-! ## C61 for the BRSKI requests -/

/-- C61, the BRSKI requests: if the parts fit they are sent as they are; a body of more than 4096
bytes is refused with an error. -/
theorem C61_brski_partial (h data : List Nat) (hne : h ≠ []) :
    (data.length ≤ 4096 → h.length + data.length + 5 ≤ 5125 →
      assemble h data = .sent ((h ++ ([13, 10] ++ (data ++ [13, 10]))).map some)) ∧
    (4096 < data.length → h.length + 3 ≤ 5125 → assemble h data = .syscall) := by
  constructor
  · intro hd hl
    have k := ClientReq.C61_sent_intact_partial h data hne hd hl
    unfold ClientReq.sendPost at k
    rw [if_neg hne] at k
    unfold assemble
    cases h1 : ClientReq.snprintf (ClientReq.freshBuf h) h.length ((ClientReq.totalLen : Int) - h.length) [13, 10] with
    | none => rw [h1] at k; simp at k
    | some b1 =>
      rw [h1] at k
      simp only at k ⊢
      unfold ClientReq.copyData at k
      rw [if_neg (by unfold ClientReq.dataMax; omega)] at k ⊢
      cases h2 : ClientReq.put b1 (h.length + 2) data with
      | none => rw [h2] at k; simp at k
      | some b2 =>
        rw [h2] at k
        simp only at k ⊢
        cases h3 : ClientReq.snprintf b2 (h.length + 2 + data.length)
            ((ClientReq.totalLen : Int) - (h.length + 2 + data.length)) [13, 10] with
        | none => rw [h3] at k; simp at k
        | some b3 =>
          rw [h3] at k
          simp only at k ⊢
          rw [k]
  · intro hd hl
    unfold assemble
    rw [ClientReq.first_crlf h (by omega)]
    simp only
    rw [if_pos (by unfold ClientReq.dataMax; omega)]

example : assemble [80, 79, 83, 84, 32, 47, 32, 72, 84, 84, 80, 47, 49, 46, 49, 13, 10] [123, 125] = .sent ([80, 79, 83, 84, 32, 47, 32, 72, 84, 84, 80, 47, 49, 46, 49, 13, 10, 13, 10, 123, 125, 13, 10].map some) :=
  (C61_brski_partial _ _ (by simp)).1 (by simp) (by simp)

/-- C61 is false for the BRSKI requests, too: a body of 4096 bytes is copied behind a header of any
length, so the buffer of 5125 bytes overflows with a long authorization line. -/
theorem C61_brski_overflow_false (h data : List Nat) (hd : data.length = 4096) (hl : 1028 ≤ h.length)
    (hu : h.length ≤ 5122) : assemble h data = .ub := by
  unfold assemble
  rw [ClientReq.first_crlf h (by omega)]
  simp only
  rw [if_neg (by unfold ClientReq.dataMax; omega)]
  unfold ClientReq.put
  rw [if_neg (by simp; omega)]

example : assemble (List.replicate 1100 65) (List.replicate 4096 65) = .ub :=
  C61_brski_overflow_false _ _ (by rw [List.length_replicate]) (by rw [List.length_replicate]; omega)
    (by rw [List.length_replicate]; omega)

/-! ## C38 -/

def Ev.isReq : Ev → Bool
  | .request .. => true
  | .sleep _ => false

/-- One voucher exchange: at most two requests, at most two connections, no sleep. -/
def Exchange (c c' : Ctx) : Prop :=
  ∃ new, c'.trace = c.trace ++ new ∧ (∀ e ∈ new, e.isReq = true) ∧ new.length ≤ 2 ∧
    c.conns < c'.conns ∧ c'.conns ≤ c.conns + 2

theorem request_trace (env : Env) (cfg op rop ct body u) (c c' : Ctx) (e b)
    (h : request env cfg op rop ct body u c = some (e, b, c')) :
    c'.conns = c.conns ∧ ∃ new, c'.trace = c.trace ++ new ∧ (∀ e ∈ new, e.isReq = true) ∧
      new.length ≤ 1 := by
  unfold request at h
  cases ha : assemble (header cfg op ct body.length (authOf u c.mode)) body with
  | ub => rw [ha] at h; simp at h
  | syscall =>
    rw [ha] at h
    simp at h
    obtain ⟨_, _, h3⟩ := h
    subst h3
    exact ⟨rfl, [], by simp, by simp, by simp⟩
  | sent bs =>
    rw [ha] at h
    cases hr : u.reply with
    | writeFailed =>
      rw [hr] at h
      simp at h
      obtain ⟨_, _, h3⟩ := h
      subst h3
      exact ⟨rfl, [.request op (authOf u c.mode) bs], rfl, by simp [Ev.isReq], by simp⟩
    | readFailed =>
      rw [hr] at h
      simp at h
      obtain ⟨_, _, h3⟩ := h
      subst h3
      exact ⟨rfl, [.request op (authOf u c.mode) bs], rfl, by simp [Ev.isReq], by simp⟩
    | tooLong =>
      rw [hr] at h
      simp at h
      obtain ⟨_, _, h3⟩ := h
      subst h3
      exact ⟨rfl, [.request op (authOf u c.mode) bs], rfl, by simp [Ev.isReq], by simp⟩
    | bytes raw =>
      rw [hr] at h
      simp at h
      obtain ⟨_, _, h3⟩ := h
      subst h3
      exact ⟨rfl, [.request op (authOf u c.mode) bs], rfl, by simp [Ev.isReq], by simp⟩

theorem voucherRequest_trace (env : Env) (cfg sg body u) (c c' : Ctx) (e b)
    (h : voucherRequest env cfg sg body u c = some (e, b, c')) :
    c'.conns = c.conns ∧ ∃ new, c'.trace = c.trace ++ new ∧ (∀ e ∈ new, e.isReq = true) ∧
      new.length ≤ 1 := by
  unfold voucherRequest at h
  cases hr : request env cfg .reqVoucher .voucherReq (voucherCt sg) body u c with
  | none => rw [hr] at h; simp at h
  | some x =>
    obtain ⟨e1, b1, c1⟩ := x
    rw [hr] at h
    simp at h
    obtain ⟨_, _, h3⟩ := h
    subst h3
    exact request_trace _ _ _ _ _ _ _ _ _ _ _ hr

theorem finish_trace (env : Env) (nonce serial e body len) (c c' : Ctx) (e' l)
    (h : finish env nonce serial e body len c = some (e', l, c')) :
    c'.conns = c.conns ∧ c'.trace = c.trace ∧ c'.mode = .none ∧ c'.delay = c.delay := by
  unfold finish at h
  by_cases he : e = .none
  · rw [if_pos he] at h
    cases hp : parseVoucher env.verifyCacert (env.verifyVoucher body) nonce serial with
    | ub => rw [hp] at h; simp at h
    | res a ca =>
      rw [hp] at h
      simp at h
      obtain ⟨_, _, h3⟩ := h
      subst h3
      exact ⟨rfl, rfl, rfl, rfl⟩
  · rw [if_neg he] at h
    simp at h
    obtain ⟨_, _, h3⟩ := h
    subst h3
    exact ⟨rfl, rfl, rfl, rfl⟩

theorem authAgain_trace (env : Env) (cfg sg nonce time serial cert len) (c c' : Ctx) (e l)
    (h : authAgain env cfg sg nonce time serial cert len c = some (e, l, c')) :
    c.conns ≤ c'.conns ∧ c'.conns ≤ c.conns + 1 ∧ ∃ new, c'.trace = c.trace ++ new ∧
      (∀ e ∈ new, e.isReq = true) ∧ new.length ≤ 1 := by
  unfold authAgain at h
  by_cases hf : c.mode = .digest ∧ env.fips = true
  · rw [if_pos hf] at h
    simp at h
    obtain ⟨_, _, h3⟩ := h
    subst h3
    exact ⟨by omega, by omega, [], by simp, by simp, by simp⟩
  rw [if_neg hf] at h
  unfold connect at h
  cases hn : env.net c.conns with
  | down x =>
    rw [hn] at h
    simp at h
    obtain ⟨_, _, h3⟩ := h
    subst h3
    exact ⟨by simp, by simp, [], by simp, by simp, by simp⟩
  | up u =>
    rw [hn] at h
    simp only at h
    cases ht : u.cert with
    | none =>
      rw [ht] at h
      simp at h
      obtain ⟨_, _, h3⟩ := h
      subst h3
      exact ⟨by simp, by simp, [], by simp, by simp, by simp⟩
    | some t =>
      rw [ht] at h
      simp only at h
      cases hr : voucherRequest env cfg sg (voucherReq nonce time (serverCert cert t)) u
          { c with conns := c.conns + 1 } with
      | none => rw [hr] at h; simp at h
      | some x =>
        obtain ⟨e1, b1, c1⟩ := x
        rw [hr] at h
        simp only at h
        obtain ⟨k1, new, k2, k3, k4⟩ := voucherRequest_trace _ _ _ _ _ _ _ _ _ hr
        obtain ⟨f1, f2, _, _⟩ := finish_trace _ _ _ _ _ _ _ _ _ _ h
        simp only at k1 k2
        exact ⟨by omega, by omega, new, by rw [f2, k2], k3, k4⟩

theorem exchange_trace (env : Env) (cfg sg serial len) (c c' : Ctx) (e l)
    (h : sendGetVoucher env cfg sg serial len c = some (e, l, c')) : Exchange c c' := by
  unfold sendGetVoucher connect at h
  cases hn : env.net c.conns with
  | down x =>
    rw [hn] at h
    simp at h
    obtain ⟨_, _, h3⟩ := h
    subst h3
    exact ⟨[], by simp, by simp, by simp, by simp, by simp⟩
  | up u =>
    rw [hn] at h
    simp only at h
    cases hz : (env.rand (c.conns + 1)).bind Hex.hexToStr with
    | none =>
      rw [hz] at h
      simp at h
      obtain ⟨_, _, h3⟩ := h
      subst h3
      exact ⟨[], by simp, by simp, by simp, by simp, by simp⟩
    | some nz =>
      rw [hz] at h
      cases ht : env.time (c.conns + 1) with
      | none =>
        rw [ht] at h
        simp at h
        obtain ⟨_, _, h3⟩ := h
        subst h3
        exact ⟨[], by simp, by simp, by simp, by simp, by simp⟩
      | some time =>
        rw [ht] at h
        cases hcert : u.cert with
        | none =>
          rw [hcert] at h
          simp at h
          obtain ⟨_, _, h3⟩ := h
          subst h3
          exact ⟨[], by simp, by simp, by simp, by simp, by simp⟩
        | some t =>
          rw [hcert] at h
          simp only at h
          cases hr : voucherRequest env cfg sg (voucherReq nz.dropLast time (serverCert [] t)) u
              { c with conns := c.conns + 1 } with
          | none => rw [hr] at h; simp at h
          | some x =>
            obtain ⟨e1, b1, c1⟩ := x
            rw [hr] at h
            simp only at h
            obtain ⟨k1, new, k2, k3, k4⟩ := voucherRequest_trace _ _ _ _ _ _ _ _ _ hr
            simp only at k1 k2
            by_cases ha : e1 = .authFail ∧ Flow.Asked c1.mode
            · rw [if_pos ha] at h
              obtain ⟨f1, f2, new2, f3, f4, f5⟩ := authAgain_trace _ _ _ _ _ _ _ _ _ _ _ _ h
              refine ⟨new ++ new2, by rw [f3, k2, List.append_assoc], ?_, by simp; omega, by omega,
                by omega⟩
              intro x hx
              rcases List.mem_append.mp hx with q | q
              · exact k3 x q
              · exact f4 x q
            · rw [if_neg ha] at h
              obtain ⟨f1, f2, _, _⟩ := finish_trace _ _ _ _ _ _ _ _ _ _ h
              exact ⟨new, by rw [f2, k2], k3, by omega, by omega, by omega⟩

/-- C38: whatever the registrar answers, the call makes no exchange, one, or one, a single sleep of
at most 60 seconds and another one; each exchange has at most two requests (the second because
of an authentication challenge). -/
theorem C38_bounded (env : Env) (cfg : ClientReq.Cfg) (sg : Bool) (len : Option Nat) (c c' : Ctx)
    (e : EstErr) (l : Nat) (h : getVoucher env cfg sg len c = some (e, l, c')) :
    c' = c ∨ Exchange c c' ∨
    ∃ c1 c2 n, Exchange c c1 ∧ n ≤ 60 ∧ c2.trace = c1.trace ++ [.sleep n] ∧ c2.conns = c1.conns ∧
      Exchange c2 c' := by
  unfold getVoucher at h
  by_cases h1 : (!c.ready) = true
  · rw [if_pos h1] at h; simp at h; exact Or.inl h.2.2.symm
  rw [if_neg h1] at h
  by_cases h2 : (!c.brski) = true
  · rw [if_pos h2] at h; simp at h; exact Or.inl h.2.2.symm
  rw [if_neg h2] at h
  cases len with
  | none => simp at h; exact Or.inl h.2.2.symm
  | some len =>
    cases hs : c.serial with
    | none => rw [hs] at h; simp at h; exact Or.inl h.2.2.symm
    | some s =>
      cases s with
      | none => rw [hs] at h; simp at h; exact Or.inl h.2.2.symm
      | some serial =>
        rw [hs] at h
        simp only at h
        by_cases h3 : serial.length > 64
        · rw [if_pos h3] at h; simp at h; exact Or.inl h.2.2.symm
        rw [if_neg h3] at h
        cases hg : sendGetVoucher env cfg sg serial len c with
        | none => rw [hg] at h; simp at h
        | some x =>
          obtain ⟨e1, l1, c1⟩ := x
          rw [hg] at h
          simp only at h
          right
          by_cases hr : e1 = .caEnrollRetry
          · rw [if_pos hr] at h
            right
            refine ⟨c1, { c1 with
              trace := c1.trace ++ [.sleep (if c1.delay > 60 then 60 else c1.delay)] },
              if c1.delay > 60 then 60 else c1.delay, exchange_trace _ _ _ _ _ _ _ _ _ hg,
              by split <;> omega, rfl, rfl, exchange_trace _ _ _ _ _ _ _ _ _ h⟩
          · rw [if_neg hr] at h
            simp at h
            left
            rw [← h.2.2]
            exact exchange_trace _ _ _ _ _ _ _ _ _ hg

/-- What counts of the sleeping: its total is at most a minute. -/
theorem C38_total (env : Env) (cfg : ClientReq.Cfg) (sg : Bool) (len : Option Nat) (c c' : Ctx)
    (e : EstErr) (l : Nat) (h : getVoucher env cfg sg len c = some (e, l, c')) :
    ∃ new, c'.trace = c.trace ++ new ∧ (new.filter (fun x => !x.isReq)).length ≤ 1 ∧
      (∀ n, Ev.sleep n ∈ new → n ≤ 60) ∧ (new.filter Ev.isReq).length ≤ 4 := by
  have nos : ∀ new : List Ev, (∀ e ∈ new, e.isReq = true) →
      new.filter (fun x => !x.isReq) = [] ∧ new.filter Ev.isReq = new ∧
      ∀ n, Ev.sleep n ∉ new := by
    intro new hn
    refine ⟨?_, List.filter_eq_self.mpr hn, ?_⟩
    · rw [List.filter_eq_nil_iff]
      intro x hx
      simp [hn x hx]
    · intro n hx
      have := hn _ hx
      simp [Ev.isReq] at this
  rcases C38_bounded env cfg sg len c c' e l h with rfl | ⟨new, h1, h2, h3, _, _⟩ |
    ⟨c1, c2, n, ⟨a, a1, a2, a3, _, _⟩, hn, hc2, _, ⟨b, b1, b2, b3, _, _⟩⟩
  · exact ⟨[], by simp, by simp, by simp, by simp⟩
  · obtain ⟨n1, n2, n3⟩ := nos new h2
    exact ⟨new, h1, by rw [n1]; simp, fun n hx => absurd hx (n3 n), by rw [n2]; omega⟩
  · obtain ⟨n1, n2, n3⟩ := nos a a2
    obtain ⟨m1, m2, m3⟩ := nos b b2
    refine ⟨a ++ ([.sleep n] ++ b), by rw [b1, hc2, a1]; simp, ?_, ?_, ?_⟩
    · rw [List.filter_append, List.filter_append, n1, m1]
      simp [Ev.isReq]
    · intro k hk
      rcases List.mem_append.mp hk with q | q
      · exact absurd q (n3 k)
      · rcases List.mem_append.mp q with q | q
        · simp at q; omega
        · exact absurd q (m3 k)
    · rw [List.filter_append, List.filter_append, n2, m2]
      simp [Ev.isReq, List.filter]
      omega

/-- C38: the registrar's delay is respected up to 60 seconds: if it answers the first request with
the retry response for `d` seconds, the library sleeps for `min d 60` seconds and then makes
the second exchange. -/
theorem C38_delay (env : Env) (cfg : ClientReq.Cfg) (sg : Bool) (len d : Nat) (c : Ctx) (serial : List Nat)
    (u : Up) (rnd nz time cert : List Nat) (bytes : List (Option Nat))
    (h1 : c.ready = true) (h2 : c.brski = true) (h3 : c.serial = some (some serial))
    (h4 : serial.length ≤ 64) (hn : env.net c.conns = .up u)
    (hr : env.rand (c.conns + 1) = some rnd) (hx : Hex.hexToStr rnd = some nz)
    (ht : env.time (c.conns + 1) = some time) (hc : u.cert = some cert) (hd : d ≤ 172800)
    (hrep : u.reply = .bytes (ClientResp.retryText d))
    (ha : assemble (header cfg .reqVoucher (voucherCt sg)
      (voucherReq nz.dropLast time (serverCert [] cert)).length (authOf u c.mode))
      (voucherReq nz.dropLast time (serverCert [] cert)) = .sent bytes) :
    getVoucher env cfg sg (some len) c =
      sendGetVoucher env cfg sg serial len
        { c with
          mode := .none
          delay := d
          conns := c.conns + 1
          trace := c.trace ++ [.request .reqVoucher (authOf u c.mode) bytes] ++ [.sleep (min d 60)] } := by
  have key := ClientResp.C25_server_retry env.tokensOk ⟨c.mode, c.delay⟩ .voucherReq d hd
  simp only [ClientResp.copyRetryAfter] at key
  obtain ⟨k1, k2, k3, k4, _⟩ := key
  have hreq : voucherRequest env cfg sg (voucherReq nz.dropLast time (serverCert [] cert)) u
      { c with conns := c.conns + 1 } = some (.caEnrollRetry, [],
        { c with
          delay := d
          conns := c.conns + 1
          trace := c.trace ++ [.request .reqVoucher (authOf u c.mode) bytes] }) := by
    unfold voucherRequest request
    simp only [ha, hrep, k1, k2, k3, k4]
    rfl
  have hgv : sendGetVoucher env cfg sg serial len c = some (.caEnrollRetry, len,
      { c with
        mode := .none
        delay := d
        conns := c.conns + 1
        trace := c.trace ++ [.request .reqVoucher (authOf u c.mode) bytes] }) := by
    unfold sendGetVoucher connect
    simp only [hn, hr, Option.bind_some, hx, ht, hc, hreq]
    rw [if_neg (by simp)]
    rfl
  unfold getVoucher
  simp only [h1, h2, h3, Bool.not_true]
  rw [if_neg (by simp), if_neg (by simp), if_neg (by omega), hgv]
  simp only
  rw [if_pos trivial]
  have hm : (if d > 60 then 60 else d) = min d 60 := by
    by_cases q : d > 60
    · rw [if_pos q]; omega
    · rw [if_neg q]; omega
  rw [hm]
  simp only [h1, h2, h3]

/-- A registrar that always asks to come back after `d` seconds. -/
def busyEnv (d : Nat) : Env where
  net _ := .up ⟨some [77, 73, 73, 66], fun _ => .none, .bytes (ClientResp.retryText d)⟩
  tokensOk _ := true
  verifyVoucher b := .ok b
  verifyCacert b := .ok b
  fips := false
  rand _ := some (List.replicate 16 171)
  time _ := some [50, 48, 50, 54, 45, 48, 49, 45, 48, 49, 84, 48, 48, 58, 48, 48, 58, 48, 48, 90]

def busyCtx : Ctx := ⟨.none, 0, true, true, 0, false, some (some [83, 78, 49]), none, 0, []⟩
def busyCfg : ClientReq.Cfg := ⟨[101, 115, 116, 99, 108, 105, 101, 110, 116], [114, 101, 103, 105, 115, 116, 114, 97, 114], 8443, none⟩

def kind : Ev → Nat
  | .request .. => 0
  | .sleep n => n

example : (getVoucher (busyEnv 90) busyCfg false (some 0) busyCtx).map
    (fun x => (x.1, x.2.2.trace.map kind)) = some (.caEnrollRetry, [0, 60, 0]) := by
  decide +kernel

example : (getVoucher (busyEnv 7) busyCfg false (some 0) busyCtx).map
    (fun x => (x.1, x.2.2.trace.map kind)) = some (.caEnrollRetry, [0, 7, 0]) := by
  decide +kernel

/-! ## C73 -/

/-- C73: what a successful call leaves: the certificate of the voucher is stored, and one copy of
it is handed out; but the length reported to the application is 0, whatever the certificate. -/
theorem C73_length_false (env : Env) (serial : List Nat) (len : Nat)
    (c c' : Ctx) (l : Nat) (hv : ∀ b, env.verifyVoucher b ≠ .error .none)
    (hvc : ∀ t, env.verifyCacert t ≠ .error .none) (e) (body nonce : List Nat)
    (hs : 0 ∉ serial)
    (h : finish env nonce serial e body len c = some (.none, l, c')) :
    l = 0 ∧ ∃ t, c'.cacert = some t ∧ e = .none ∧
      parseVoucher env.verifyCacert (env.verifyVoucher body) nonce serial =
        .res .none (some (some t)) := by
  unfold finish at h
  by_cases he : e = .none
  · rw [if_pos he] at h
    cases hp : parseVoucher env.verifyCacert (env.verifyVoucher body) nonce serial with
    | ub => rw [hp] at h; simp at h
    | res a ca =>
      rw [hp] at h
      simp at h
      obtain ⟨h1, h2, h3⟩ := h
      subst h1
      obtain ⟨_, _, _, _, _, _, _, v, t, _, _, hca⟩ :=
        C36_accepted_any _ _ _ _ ca hs (hv body) hvc hp
      subst hca
      exact ⟨h2.symm, t, by rw [← h3]; rfl, he, rfl⟩
  · rw [if_neg he] at h
    simp at h
    exact absurd h.1 he

/-- C73: the first copy hands out exactly the stored certificate. -/
theorem C73_first_copy_partial (c : Ctx) (t : List Nat) (h1 : c.ready = true) (h2 : c.brski = true)
    (h3 : c.cacert = some t) :
    (copyCacert true c).1 = .none ∧ (copyCacert true c).2.1 = some t := by
  unfold copyCacert
  simp [h1, h2, h3]

/-- C73: the certificate is not removed by the copy, as the interface says: a second copy succeeds
and hands out zeros. -/
theorem C73_second_copy_false (c : Ctx) (t : List Nat) (h1 : c.ready = true) (h2 : c.brski = true)
    (h3 : c.cacert = some t) :
    copyCacert true (copyCacert true c).2.2 =
      (.none, some (List.replicate t.length 0), (copyCacert true c).2.2) := by
  unfold copyCacert
  simp [h1, h2, h3]

/-! ## C74 -/

/-- C74: the call is refused when it makes no sense, and then changes nothing. -/
theorem C74_refused_partial (c : Ctx) :
    (c.ready = false → setBrskiMode c = (.clientNotInitialized, c)) ∧
    (c.ready = true → c.brski = true → setBrskiMode c = (.invalidParameters, c)) ∧
    (c.ready = true → c.brski = false → (setBrskiMode c).1 = .none ∧
      (setBrskiMode c).2.brski = true) := by
  refine ⟨?_, ?_, ?_⟩
  · intro h; simp [setBrskiMode, h]
  · intro h h'; simp [setBrskiMode, h, h']
  · intro h h'; simp [setBrskiMode, h, h']

/-- C74 is false: the call sets every bit of the verification mode, so that the registrar is
verified (bit 0) and must have a certificate (bit 1), and it takes the application's
verification callback away. -/
theorem C74_verification_stays_on_false (c : Ctx) (h : c.ready = true) (h' : c.brski = false) :
    (setBrskiMode c).2.verify &&& 1#32 = 1#32 ∧ (setBrskiMode c).2.verify &&& 2#32 = 2#32 ∧
      (setBrskiMode c).2.verifyCb = false := by
  simp [setBrskiMode, h, h']

/-! ## C75 -/

/-- The text is a JSON object with these members. -/
def IsObject (text : List Nat) (ms : List (List Nat × FVal)) : Prop :=
  ∃ fs : List Field, fs ≠ [] ∧ (∀ f ∈ fs, f.Ok) ∧ text = 123 :: (fieldsText fs ++ [125]) ∧
    fs.map (fun f => (f.key, f.val)) = ms

theorem isObject_val {text : List Nat} {ms : List (List Nat × FVal)} (h : IsObject text ms) :
    ∃ ts, Val 0 text ts ∧ ts.length = 2 * ms.length + 1 := by
  obtain ⟨fs, h1, h2, h3, h4⟩ := h
  refine ⟨⟨.object, 0, some (0 + (fieldsText fs).length + 2), fs.length⟩ :: fieldsToks 1 fs, ?_, ?_⟩
  · rw [h3]
    exact Val.cont true 0 (fieldsText fs) fs.length _ (items_fields 1 fs h1 h2)
  · rw [← h4]; simp [fieldsToks_length]

def boolWord (s : Status) : List Nat := if s = .success then [116, 114, 117, 101] else [102, 97, 108, 115, 101]

theorem boolWord_ok (s : Status) : (FVal.prim (boolWord s)).Ok := by
  cases s <;> (unfold FVal.Ok PrimText boolWord; decide)

/-- C75, the part that holds: for a reason that needs no escaping the voucher status is a JSON
object with the version, the status and the reason. -/
theorem C75_voucher_status_partial (s : Status) (reason : List Nat) (hr : StrBody reason)
    (hl : reason.length ≤ 255) :
    IsObject (voucherStatusText s reason)
      [([118, 101, 114, 115, 105, 111, 110], .str [49]), ([83, 116, 97, 116, 117, 115], .prim (boolWord s)), ([82, 101, 97, 115, 111, 110], .str reason)] := by
  have n0 : Ws [] := ws_dec _ rfl
  have n2 : Ws [13, 10] := ws_dec _ rfl
  refine ⟨[⟨[13, 10], [118, 101, 114, 115, 105, 111, 110], [], [], .str [49], []⟩,
    ⟨[13, 10], [83, 116, 97, 116, 117, 115], [], [], .prim (boolWord s), []⟩,
    ⟨[13, 10], [82, 101, 97, 115, 111, 110], [], [], .str reason, [13, 10]⟩], by simp, ?_, ?_, rfl⟩
  · intro f hf
    simp only [List.mem_cons, List.not_mem_nil, or_false] at hf
    rcases hf with rfl | rfl | rfl
    · exact ⟨n2, strBody_plain _ (by simp), n0, n0, strBody_plain _ (by simp), n0⟩
    · exact ⟨n2, strBody_plain _ (by simp), n0, n0, boolWord_ok s, n0⟩
    · exact ⟨n2, strBody_plain _ (by simp), n0, n0, hr, n2⟩
  · have hw : boolWord s = statusWord s := by cases s <;> rfl
    have hwl : (statusWord s).length ≤ 5 := by cases s <;> decide
    unfold voucherStatusText
    rw [List.take_of_length_le (by simp; omega)]
    simp [fieldsText, Field.inner, FVal.text, hw]

/-- C75: the same for the enrolment status, which has the base64 text of the key identifier as a
fourth member. -/
theorem C75_enroll_status_partial (s : Status) (reason ski : List Nat) (hr : StrBody reason)
    (hl : reason.length ≤ 255) (hk : StrBody ski) (hkl : ski.length ≤ 32) :
    IsObject (enrollStatusText s reason ski)
      [([118, 101, 114, 115, 105, 111, 110], .str [49]), ([83, 116, 97, 116, 117, 115], .prim (boolWord s)), ([82, 101, 97, 115, 111, 110], .str reason),
       ([83, 117, 98, 106, 101, 99, 116, 75, 101, 121, 73, 100, 101, 110, 116, 105, 102, 105, 101, 114], .str ski)] := by
  have n0 : Ws [] := ws_dec _ rfl
  have n2 : Ws [13, 10] := ws_dec _ rfl
  refine ⟨[⟨[13, 10], [118, 101, 114, 115, 105, 111, 110], [], [], .str [49], []⟩,
    ⟨[13, 10], [83, 116, 97, 116, 117, 115], [], [], .prim (boolWord s), []⟩,
    ⟨[13, 10], [82, 101, 97, 115, 111, 110], [], [], .str reason, []⟩,
    ⟨[13, 10], [83, 117, 98, 106, 101, 99, 116, 75, 101, 121, 73, 100, 101, 110, 116, 105, 102, 105, 101, 114], [], [], .str ski, [13, 10]⟩], by simp, ?_, ?_, rfl⟩
  · intro f hf
    simp only [List.mem_cons, List.not_mem_nil, or_false] at hf
    rcases hf with rfl | rfl | rfl | rfl
    · exact ⟨n2, strBody_plain _ (by simp), n0, n0, strBody_plain _ (by simp), n0⟩
    · exact ⟨n2, strBody_plain _ (by simp), n0, n0, boolWord_ok s, n0⟩
    · exact ⟨n2, strBody_plain _ (by simp), n0, n0, hr, n0⟩
    · exact ⟨n2, strBody_plain _ (by simp), n0, n0, hk, n2⟩
  · have hw : boolWord s = statusWord s := by cases s <;> rfl
    have hwl : (statusWord s).length ≤ 5 := by cases s <;> decide
    unfold enrollStatusText
    rw [List.take_of_length_le (by simp; omega)]
    simp [fieldsText, Field.inner, FVal.text, hw]

/-- C75: the voucher request is a JSON document with the nonce, the time, the assertion and the
registrar's certificate, and a registrar that reads it with the same tokeniser finds them. -/
theorem C75_voucher_request_partial (nonce time cert : List Nat) (hn : StrBody nonce)
    (ht : StrBody time) (hc : StrBody cert) (h1 : nonce.length = 32) (h2 : time.length ≤ 25)
    (h3 : cert.length ≤ 8192) :
    ∃ d : Doc, d.Ok ∧ voucherReq nonce time cert = d.text ∧
      d.name = [105, 101, 116, 102, 45, 118, 111, 117, 99, 104, 101, 114, 45, 114, 101, 113, 117, 101, 115, 116, 58, 118, 111, 117, 99, 104, 101, 114] ∧
      d.fields.map (fun f => (f.key, f.val)) =
        [([110, 111, 110, 99, 101], .str nonce), ([99, 114, 101, 97, 116, 101, 100, 45, 111, 110], .str time), ([97, 115, 115, 101, 114, 116, 105, 111, 110], .str [112, 114, 111, 120, 105, 109, 105, 116, 121]),
         ([112, 114, 111, 120, 105, 109, 105, 116, 121, 45, 114, 101, 103, 105, 115, 116, 114, 97, 114, 45, 99, 101, 114, 116], .str cert)] := by
  have n0 : Ws [] := ws_dec _ rfl
  have n1 : Ws [32] := ws_dec _ rfl
  have n2 : Ws [13, 10] := ws_dec _ rfl
  refine ⟨⟨[], [13, 10], [105, 101, 116, 102, 45, 118, 111, 117, 99, 104, 101, 114, 45, 114, 101, 113, 117, 101, 115, 116, 58, 118, 111, 117, 99, 104, 101, 114], [], [32],
    [⟨[13, 10], [110, 111, 110, 99, 101], [], [32], .str nonce, []⟩,
     ⟨[13, 10], [99, 114, 101, 97, 116, 101, 100, 45, 111, 110], [], [32], .str time, []⟩,
     ⟨[13, 10], [97, 115, 115, 101, 114, 116, 105, 111, 110], [], [32], .str [112, 114, 111, 120, 105, 109, 105, 116, 121], []⟩,
     ⟨[13, 10], [112, 114, 111, 120, 105, 109, 105, 116, 121, 45, 114, 101, 103, 105, 115, 116, 114, 97, 114, 45, 99, 101, 114, 116], [], [32], .str cert, [13, 10]⟩], [], []⟩, ?_, ?_, rfl, rfl⟩
  · refine ⟨n0, n2, strBody_plain _ (by simp), n0, n1, n0, n0, by simp, ?_⟩
    intro f hf
    simp only [List.mem_cons, List.not_mem_nil, or_false] at hf
    rcases hf with rfl | rfl | rfl | rfl
    · exact ⟨n2, strBody_plain _ (by simp), n0, n1, hn, n0⟩
    · exact ⟨n2, strBody_plain _ (by simp), n0, n1, ht, n0⟩
    · exact ⟨n2, strBody_plain _ (by simp), n0, n1, strBody_plain _ (by simp), n0⟩
    · exact ⟨n2, strBody_plain _ (by simp), n0, n1, hc, n2⟩
  · unfold voucherReq
    rw [List.take_of_length_le (by simp; omega)]
    simp [Doc.text, Doc.inner, fieldsText, Field.inner, FVal.text]

/-- C75 is false in general: the reason is not escaped.  The report of a failure with the reason
`x","Status":true,"Reason":"y` has a member `Status` that says success. -/
theorem C75_reason_false :
    IsObject (voucherStatusText .fail [120, 34, 44, 34, 83, 116, 97, 116, 117, 115, 34, 58, 116, 114, 117, 101, 44, 34, 82, 101, 97, 115, 111, 110, 34, 58, 34, 121])
      [([118, 101, 114, 115, 105, 111, 110], .str [49]), ([83, 116, 97, 116, 117, 115], .prim [102, 97, 108, 115, 101]), ([82, 101, 97, 115, 111, 110], .str [120]),
       ([83, 116, 97, 116, 117, 115], .prim [116, 114, 117, 101]), ([82, 101, 97, 115, 111, 110], .str [121])] := by
  have n0 : Ws [] := ws_dec _ rfl
  have n2 : Ws [13, 10] := ws_dec _ rfl
  refine ⟨[⟨[13, 10], [118, 101, 114, 115, 105, 111, 110], [], [], .str [49], []⟩,
    ⟨[13, 10], [83, 116, 97, 116, 117, 115], [], [], .prim [102, 97, 108, 115, 101], []⟩,
    ⟨[13, 10], [82, 101, 97, 115, 111, 110], [], [], .str [120], []⟩,
    ⟨[], [83, 116, 97, 116, 117, 115], [], [], .prim [116, 114, 117, 101], []⟩,
    ⟨[], [82, 101, 97, 115, 111, 110], [], [], .str [121], [13, 10]⟩], by simp, ?_, by decide +kernel, rfl⟩
  intro f hf
  simp only [List.mem_cons, List.not_mem_nil, or_false] at hf
  rcases hf with rfl | rfl | rfl | rfl | rfl
  · exact ⟨n2, strBody_plain _ (by simp), n0, n0, strBody_plain _ (by simp), n0⟩
  · exact ⟨n2, strBody_plain _ (by simp), n0, n0, boolWord_ok .fail, n0⟩
  · exact ⟨n2, strBody_plain _ (by simp), n0, n0, strBody_plain _ (by simp), n0⟩
  · exact ⟨n0, strBody_plain _ (by simp), n0, n0, boolWord_ok .success, n0⟩
  · exact ⟨n0, strBody_plain _ (by simp), n0, n0, strBody_plain _ (by simp), n2⟩

/-- C75: the reason of a success may be absent, says the interface; the format is then given a NULL
pointer. -/
theorem C75_null_reason_false (env : Env) (cfg : ClientReq.Cfg) (b64 : List Nat → Option (List Nat))
    (k t : List Nat) (c : Ctx) (h1 : c.ready = true) (h2 : c.brski = true) (hk : k.length ≤ 24)
    (hk0 : k.head? ≠ some 10) (hb : b64 k = some t) :
    sendEnrollStatus env cfg b64 .success none (some k) c = none := by
  unfold sendEnrollStatus
  simp [h1, h2, hk0, hb]
  omega

/-- C75: in the second try the certificate of the new connection is written over the old one, so
that the end of a longer old one stays behind it. -/
theorem C75_second_cert_false : serverCert (serverCert [] [65, 65, 65, 65, 66, 66, 66, 66]) [67, 67, 67, 67] = [67, 67, 67, 67, 66, 66, 66, 66] := by
  decide

/-- C75: the arguments of a status indication that are accepted; any other call is refused with
nothing sent and nothing changed. -/
def VoucherStatusArgs (s : Status) (reason : Option (List Nat)) : Prop :=
  s ≠ .other ∧ ∃ r, reason = some r ∧ r.length ≤ 255 ∧ r.head? ≠ some 10

def EnrollStatusArgs (b64 : List Nat → Option (List Nat)) (s : Status)
    (reason ski : Option (List Nat)) : Prop :=
  s ≠ .other ∧ (s = .fail → reason ≠ none) ∧ (∀ r, reason = some r → r.length ≤ 255) ∧
  ∃ k, ski = some k ∧ k.length ≤ 24 ∧ k.head? ≠ some 10 ∧ b64 k ≠ none

theorem C75_voucher_status_refused (env : Env) (cfg : ClientReq.Cfg) (s : Status)
    (reason : Option (List Nat)) (c : Ctx) (h1 : c.ready = true) (h2 : c.brski = true)
    (h : ¬ VoucherStatusArgs s reason) :
    sendVoucherStatus env cfg s reason c = some (.invalidParameters, c) := by
  unfold sendVoucherStatus
  simp only [h1, h2, Bool.not_true, Bool.false_eq_true, if_neg, not_false_eq_true]
  by_cases hs : s = .other
  · rw [if_pos hs]
  · rw [if_neg hs]
    cases reason with
    | none => rfl
    | some r =>
      simp only
      by_cases h3 : r.head? = some 10
      · rw [if_pos h3]
      · rw [if_neg h3]
        by_cases h4 : r.length > 255
        · rw [if_pos h4]
        · exact absurd ⟨hs, r, rfl, by omega, h3⟩ h

theorem C75_voucher_status_sent (env : Env) (cfg : ClientReq.Cfg) (s : Status) (r : List Nat)
    (c : Ctx) (h1 : c.ready = true) (h2 : c.brski = true) (h : VoucherStatusArgs s (some r)) :
    sendVoucherStatus env cfg s (some r) c =
      sendStatus env cfg .voucherStatus .voucherStatus (voucherStatusText s r) c := by
  obtain ⟨hs, _, hr, hl, hh⟩ := h
  cases hr
  unfold sendVoucherStatus
  simp only [h1, h2, Bool.not_true, Bool.false_eq_true, if_neg, not_false_eq_true]
  rw [if_neg hs, if_neg hh, if_neg (by omega)]

theorem C75_enroll_status_refused (env : Env) (cfg : ClientReq.Cfg)
    (b64 : List Nat → Option (List Nat)) (s : Status) (reason ski : Option (List Nat)) (c : Ctx)
    (h1 : c.ready = true) (h2 : c.brski = true) (h : ¬ EnrollStatusArgs b64 s reason ski) :
    sendEnrollStatus env cfg b64 s reason ski c = some (.invalidParameters, c) := by
  unfold sendEnrollStatus
  simp only [h1, h2, Bool.not_true, Bool.false_eq_true, if_neg, not_false_eq_true]
  by_cases hs : s = .other
  · rw [if_pos hs]
  · rw [if_neg hs]
    by_cases h3 : (reason.getD []).length > 255
    · rw [if_pos h3]
    · rw [if_neg h3]
      by_cases h4 : s = .fail ∧ reason = none
      · rw [if_pos h4]
      · rw [if_neg h4]
        cases ski with
        | none => rfl
        | some k =>
          simp only
          by_cases h5 : k.head? = some 10
          · rw [if_pos h5]
          · rw [if_neg h5]
            by_cases h6 : k.length > 24
            · rw [if_pos h6]
            · rw [if_neg h6]
              cases hb : b64 k with
              | none => rfl
              | some t =>
                refine absurd ⟨hs, fun q r => h4 ⟨q, r⟩, ?_, k, rfl, by omega, h5, by simp [hb]⟩ h
                intro r hr
                rw [hr] at h3
                simpa using h3

theorem C75_enroll_status_sent (env : Env) (cfg : ClientReq.Cfg)
    (b64 : List Nat → Option (List Nat)) (s : Status) (r k t : List Nat) (c : Ctx)
    (h1 : c.ready = true) (h2 : c.brski = true) (h : EnrollStatusArgs b64 s (some r) (some k))
    (ht : b64 k = some t) :
    sendEnrollStatus env cfg b64 s (some r) (some k) c =
      sendStatus env cfg .enrollStatus .enrollStatus (enrollStatusText s r t) c := by
  obtain ⟨hs, _, hl, _, hk, hkl, hh, _⟩ := h
  cases hk
  have := hl r rfl
  unfold sendEnrollStatus
  simp only [h1, h2, Bool.not_true, Bool.false_eq_true, if_neg, not_false_eq_true]
  rw [if_neg hs, if_neg (by simpa using this), if_neg (by simp), if_neg hh, if_neg (by omega), ht]

example : ¬ VoucherStatusArgs .success none := by
  rintro ⟨_, r, h, _⟩
  cases h
example : VoucherStatusArgs .fail (some [98, 97, 100, 32, 118, 111, 117, 99, 104, 101, 114]) := ⟨by decide, _, rfl, by decide, by decide⟩
example : EnrollStatusArgs some .success (some []) (some [48, 49, 50, 51]) :=
  ⟨by decide, by decide, by intro r h; cases h; decide, _, rfl, by decide, by decide, by decide⟩

/-- C27 for status indications: after one that got through to an answer, the authentication mode is
reset, so that nothing is volunteered to the next server. -/
theorem C27_status_mode (env : Env) (cfg : ClientReq.Cfg) (op : EstUri.Op) (rop : ClientResp.Op)
    (text : List Nat) (c c' : Ctx) (u : Up) (d : Ctx) (hc : connect env c = (.up u, d))
    (e : EstErr) (b : List Nat) (c1 : Ctx)
    (hr : request env cfg op rop [97, 112, 112, 108, 105, 99, 97, 116, 105, 111, 110, 47, 106, 115, 111, 110] text u d = some (e, b, c1))
    (hn : ¬ (e = .authFail ∧ Flow.Asked c1.mode)) (e' : EstErr)
    (h : sendStatus env cfg op rop text c = some (e', c')) : e' = e ∧ c'.mode = .none := by
  unfold sendStatus at h
  rw [hc] at h
  simp only [hr] at h
  rw [if_neg hn] at h
  cases h
  exact ⟨rfl, rfl⟩

/-- C28 for vouchers: an answer without body is an error, one of up to 1999999 bytes is handed on. -/
theorem C28_voucher_size (env : Env) (cfg : ClientReq.Cfg) (signed : Bool) (body : List Nat) (u : Up)
    (c c1 : Ctx) (e : EstErr) (b : List Nat)
    (h : voucherRequest env cfg signed body u c = some (e, b, c1)) :
    (e = .none → b ≠ [] ∧ b.length < 2000000) ∧
    ∀ e0, request env cfg .reqVoucher .voucherReq (voucherCt signed) body u c = some (e0, b, c1) →
      (e0 = .none → b ≠ [] → b.length < 2000000 → e = .none) ∧ (e0 ≠ .none → e = e0) := by
  unfold voucherRequest at h
  cases hq : request env cfg .reqVoucher .voucherReq (voucherCt signed) body u c with
  | none => rw [hq] at h; cases h
  | some x =>
    obtain ⟨e0, b0, c0⟩ := x
    rw [hq] at h
    simp only [Option.some.injEq, Prod.mk.injEq] at h
    obtain ⟨rfl, rfl, rfl⟩ := h
    refine ⟨fun he => ?_, ?_⟩
    · unfold sizeCheck at he
      split at he
      · split at he
        · cases he
        · split at he
          · cases he
          · rename_i q1 q2
            refine ⟨fun q => q1 (by rw [q]; rfl), by omega⟩
      · rename_i q; exact absurd he q
    · intro e1 h1
      simp only [Option.some.injEq, Prod.mk.injEq, and_true] at h1
      subst h1
      unfold sizeCheck
      refine ⟨fun q1 q2 q3 => ?_, fun q => by rw [if_neg q]⟩
      rw [if_pos q1, if_neg (fun q => q2 (List.length_eq_zero_iff.mp q)), if_neg (by omega)]

/-- C36: the scan looks at every token but the first, in order: the value taken for a member is the
token behind the first string token that spells its name. -/
theorem C36_scan (js : List Nat) (t0 : Tok) (pre : List Tok) (t u : Tok) (rest : List Tok)
    (name : List Nat) (cap max : Nat) (hp : ∀ x ∈ pre, ¬ (x.ty = .string ∧ slice js x = name))
    (ht : t.ty = .string ∧ slice js t = name) :
    retrieve js (t0 :: (pre ++ t :: u :: rest)) name cap max =
      .value ((slice js u).take (max - 1)) := by
  unfold retrieve
  rw [List.drop_one, List.tail_cons]
  have key : ∀ i, find js name cap max i (pre ++ t :: u :: rest) =
      .value ((slice js u).take (max - 1)) := ?_
  · exact key 1
  intro i
  induction pre generalizing i with
  | nil => simp [find, jsoneq, ht]
  | cons x pre ih =>
    have hx := hp x (by simp)
    have : jsoneq js x name = false := by
      unfold jsoneq
      by_cases q : x.ty = .string
      · have q2 : ¬ slice js x = name := fun r => hx ⟨q, r⟩
        simp [q2]
      · simp [q]
    simp only [List.cons_append, find, this, Bool.false_eq_true, if_neg, not_false_eq_true]
    exact ih (fun y hy => hp y (by simp [hy])) (i + 1)

/-! ## Examples -/

/-- A registrar that sends a voucher at once. -/
def goodEnv : Env := { busyEnv 0 with
  net := fun _ => .up ⟨some [77, 73, 73, 66], fun _ => .none, .bytes [72, 84, 84, 80, 47, 49, 46, 49, 32, 50, 48, 48, 32, 79, 75, 13, 10, 67, 111, 110, 116, 101, 110, 116, 45, 84, 121, 112, 101, 58, 32, 97, 112, 112, 108, 105, 99, 97, 116, 105, 111, 110, 47, 118, 111, 117, 99, 104, 101, 114, 43, 99, 109, 115, 13, 10, 67, 111, 110, 116, 101, 110, 116, 45, 76, 101, 110, 103, 116, 104, 58, 32, 52, 13, 10, 13, 10, 65, 66, 67, 68]⟩
  rand := fun _ => some (List.replicate 16 18)
  verifyVoucher := fun _ => .ok [123, 34, 105, 101, 116, 102, 45, 118, 111, 117, 99, 104, 101, 114, 58, 118, 111, 117, 99, 104, 101, 114, 34, 58, 123, 34, 110, 111, 110, 99, 101, 34, 58, 34, 49, 50, 49, 50, 49, 50, 49, 50, 49, 50, 49, 50, 49, 50, 49, 50, 49, 50, 49, 50, 49, 50, 49, 50, 49, 50, 49, 50, 49, 50, 49, 50, 34, 44, 34, 115, 101, 114, 105, 97, 108, 45, 110, 117, 109, 98, 101, 114, 34, 58, 34, 83, 78, 49, 34, 44, 34, 112, 105, 110, 110, 101, 100, 45, 100, 111, 109, 97, 105, 110, 45, 99, 101, 114, 116, 34, 58, 34, 77, 73, 73, 61, 34, 125, 125] }

example : (getVoucher goodEnv busyCfg true (some 0) busyCtx).map
    (fun x => (x.1, x.2.1, x.2.2.cacert, x.2.2.trace.map kind)) =
      some (.none, 0, some [77, 73, 73, 61], [0]) := by
  decide +kernel

example : voucherStatusText .fail [101, 120, 112, 105, 114, 101, 100] =
    [123, 13, 10, 34, 118, 101, 114, 115, 105, 111, 110, 34, 58, 34, 49, 34, 44, 13, 10, 34, 83, 116, 97, 116, 117, 115, 34, 58, 102, 97, 108, 115, 101, 44, 13, 10, 34, 82, 101, 97, 115, 111, 110, 34, 58, 34, 101, 120, 112, 105, 114, 101, 100, 34, 13, 10, 125] := by decide

example : (setBrskiMode { busyCtx with brski := false }).2.verify = 4294967295#32 := by decide

example : (copyCacert true { busyCtx with cacert := some [77, 73, 73, 67] }).2.1 = some [77, 73, 73, 67] := by decide

end Verif.Voucher
