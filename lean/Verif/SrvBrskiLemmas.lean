import Verif.SrvBrskiModel
import Verif.VoucherProps

/-!
# Lemmas about the sample server's BRSKI callbacks
-/
namespace Verif.SrvBrski
open Verif.Jsmn (Tok Ty Val Item Items Ws StrBody)
open Verif.Voucher (Found slice jsoneq find retrieve Field Doc FVal fieldsText fieldsToks lookup NotAValue IsObject)

deriving instance DecidableEq for Except

/-! ## Printing -/

theorem dumpLoop_safe (g : Nat → Int → Option Nat) (n i : Nat) (c : Int)
    (hg : ∀ i' c', i' ≤ n → ∃ r, g i' c' = some r ∧ i' + r ≤ n) :
    ∀ k j, i + 1 + j ≤ n → ∃ r, dumpLoop g i c k j = some r ∧ i + 1 + r ≤ n := by
  intro k
  induction k with
  | zero => intro j h; exact ⟨j, rfl, h⟩
  | succ k ih =>
    intro j h
    obtain ⟨r, h1, h2⟩ := hg (i + 1 + j) (c - j) h
    simp only [dumpLoop, h1]
    exact ih (j + r) (by omega)

theorem dump_safe (toks : List Tok) (cap : Nat) (h : toks.length < cap) :
    ∀ f i c, i ≤ toks.length → ∃ r, dump toks cap f i c = some r ∧ i + r ≤ toks.length := by
  intro f
  induction f with
  | zero => intro i c hi; exact ⟨0, rfl, hi⟩
  | succ f ih =>
    intro i c hi
    simp only [dump]
    split
    · exact ⟨0, rfl, hi⟩
    · cases ht : toks[i]? with
      | none => exact ⟨0, by simp; omega, hi⟩
      | some t =>
        have hlt : i < toks.length := by
          rcases Nat.lt_or_ge i toks.length with q | q
          · exact q
          · rw [List.getElem?_eq_none q] at ht; cases ht
        cases hty : t.ty with
        | primitive => exact ⟨1, by simp [hty], by omega⟩
        | string => exact ⟨1, by simp [hty], by omega⟩
        | object =>
          obtain ⟨r, h1, h2⟩ := dumpLoop_safe (dump toks cap f) toks.length i c
            (fun i' c' hi' => ih i' c' hi') (2 * t.size) 0 (by omega)
          exact ⟨r + 1, by simp [hty, h1], by omega⟩
        | array =>
          obtain ⟨r, h1, h2⟩ := dumpLoop_safe (dump toks cap f) toks.length i c
            (fun i' c' hi' => ih i' c' hi') t.size 0 (by omega)
          exact ⟨r + 1, by simp [hty, h1], by omega⟩

def DVal (ts : List Tok) : Prop :=
  ∀ (A B : List Tok) (cap f : Nat) (c : Int), ((ts.length + B.length : Nat) : Int) ≤ c →
    ts.length ≤ f → 0 < ts.length ∧ dump (A ++ (ts ++ B)) cap f A.length c = some ts.length

def DItem (o : Bool) (n : Nat) (ts : List Tok) : Prop :=
  ∀ (A B : List Tok) (cap f i k j : Nat) (c : Int), A.length = i + 1 + j →
    ((ts.length + B.length : Nat) : Int) ≤ c - j → ts.length ≤ f →
    dumpLoop (dump (A ++ (ts ++ B)) cap f) i c ((if o then 2 * n else n) + k) j =
      dumpLoop (dump (A ++ (ts ++ B)) cap f) i c k (j + ts.length)

theorem dump_at (A B : List Tok) (t : Tok) (cap f : Nat) (c : Int) (hc : c ≠ 0) :
    dump (A ++ (t :: B)) cap (f + 1) A.length c =
      match t.ty with
      | .primitive => some 1
      | .string => some 1
      | .object => (dumpLoop (dump (A ++ (t :: B)) cap f) A.length c (2 * t.size) 0).map (· + 1)
      | .array => (dumpLoop (dump (A ++ (t :: B)) cap f) A.length c t.size 0).map (· + 1) := by
  have ht : (A ++ (t :: B))[A.length]? = some t := by simp
  simp only [dump, if_neg hc, ht]
  cases t.ty <;> rfl

theorem dumpLoop_step (g : Nat → Int → Option Nat) (i k j d : Nat) (c : Int)
    (h : g (i + 1 + j) (c - j) = some d) : dumpLoop g i c (k + 1) j = dumpLoop g i c k (j + d) := by
  simp only [dumpLoop, h]

theorem dump_val {p : Nat} {t : List Nat} {ts : List Tok} (h : Val p t ts) : DVal ts := by
  refine Val.rec (motive_1 := fun _ _ ts _ => DVal ts)
    (motive_2 := fun o _ _ ts _ => DItem o 1 ts)
    (motive_3 := fun o _ _ n ts _ => DItem o n ts)
    ?_ ?_ ?_ ?_ ?_ ?_ ?_ ?_ h
  · intro p s _ A B cap f c hc hf
    simp only [List.length_singleton] at hc hf
    obtain ⟨f', rfl⟩ : ∃ f', f = f' + 1 := ⟨f - 1, by omega⟩
    refine ⟨by simp, ?_⟩
    have := dump_at A B ⟨.string, p + 1, some (p + 1 + s.length), 0⟩ cap f' c (by omega)
    simpa using this
  · intro p s _ A B cap f c hc hf
    simp only [List.length_singleton] at hc hf
    obtain ⟨f', rfl⟩ : ∃ f', f = f' + 1 := ⟨f - 1, by omega⟩
    refine ⟨by simp, ?_⟩
    have := dump_at A B ⟨.primitive, p, some (p + s.length), 0⟩ cap f' c (by omega)
    simpa using this
  · intro o p w _ A B cap f c hc hf
    simp only [List.length_singleton] at hc hf
    obtain ⟨f', rfl⟩ : ∃ f', f = f' + 1 := ⟨f - 1, by omega⟩
    refine ⟨by simp, ?_⟩
    have := dump_at A B ⟨Jsmn.cty o, p, some (p + w.length + 2), 0⟩ cap f' c (by omega)
    cases o <;> simpa [Jsmn.cty, dumpLoop] using this
  · intro o p t n ts _ ih A B cap f c hc hf
    simp only [List.length_cons] at hc hf
    obtain ⟨f', rfl⟩ : ∃ f', f = f' + 1 := ⟨f - 1, by omega⟩
    refine ⟨by simp, ?_⟩
    have h1 := dump_at A (ts ++ B) ⟨Jsmn.cty o, p, some (p + t.length + 2), n⟩ cap f' c (by omega)
    have h2 := ih (A ++ [⟨Jsmn.cty o, p, some (p + t.length + 2), n⟩]) B cap f' A.length 0 0 c
      (by simp) (by omega) (by omega)
    have e : ∀ x : Tok, (A ++ [x]) ++ (ts ++ B) = A ++ (x :: (ts ++ B)) := by simp
    rw [e] at h2
    rw [List.cons_append, h1]
    cases o
    · simp only [Jsmn.cty] at h2 ⊢
      simp at h2
      simp [h2, dumpLoop]
    · simp only [Jsmn.cty] at h2 ⊢
      simp at h2
      simp [h2, dumpLoop]
  · intro p t ts _ ih A B cap f i k j c hA hc hf
    have := (ih A B cap f (c - j) hc hf).2
    rw [if_neg (by simp), Nat.add_comm 1 k]
    exact dumpLoop_step _ _ _ _ _ _ (by rw [← hA]; exact this)
  · intro p s w1 w2 t ts _ _ _ _ ih A B cap f i k j c hA hc hf
    simp only [List.length_cons] at hc hf
    have h0 : 0 < f := by omega
    obtain ⟨f', rfl⟩ : ∃ f', f = f' + 1 := ⟨f - 1, by omega⟩
    have h1 := dump_at A (ts ++ B) ⟨.string, p + 1, some (p + 1 + s.length), 1⟩ cap f' (c - j) (by omega)
    simp only at h1
    have h2 := (ih (A ++ [⟨.string, p + 1, some (p + 1 + s.length), 1⟩]) B cap (f' + 1) (c - (j + 1 : Nat))
      (by omega) (by omega)).2
    have e : ∀ x : Tok, (A ++ [x]) ++ (ts ++ B) = A ++ (x :: (ts ++ B)) := by simp
    rw [e] at h2
    rw [if_pos rfl, List.cons_append]
    have e2 : 2 * 1 + k = (k + 1) + 1 := by omega
    rw [e2, dumpLoop_step _ _ _ _ 1 _ (by rw [← hA]; exact h1),
      dumpLoop_step _ _ _ _ ts.length _ (by
        have : i + 1 + (j + 1) = (A ++ [(⟨.string, p + 1, some (p + 1 + s.length), 1⟩ : Tok)]).length := by
          simp; omega
        rw [this]; exact h2)]
    congr 1
    simp; omega
  · intro o p w1 t w2 ts _ _ _ ih
    exact ih
  · intro o p w1 t w2 r n ts rs _ _ _ _ ih ihs A B cap f i k j c hA hc hf
    simp only [List.length_append] at hc hf
    have h1 := ih A (rs ++ B) cap f i ((if o then 2 * n else n) + k) j c hA
      (by simp only [List.length_append]; omega) (by omega)
    have h2 := ihs (A ++ ts) B cap f i k (j + ts.length) c (by simp; omega) (by omega) (by omega)
    have e1 : A ++ ts ++ (rs ++ B) = A ++ (ts ++ (rs ++ B)) := by simp
    rw [e1] at h2
    have e2 : (if o then 2 * (n + 1) else n + 1) + k = (if o then 2 * 1 else 1) + ((if o then 2 * n else n) + k) := by
      cases o <;> simp <;> omega
    rw [e2, List.append_assoc, h1, h2]
    congr 1
    simp; omega

theorem dumpAll_val {p : Nat} {t : List Nat} {ts : List Tok} (h : Val p t ts) (cap : Nat) :
    dumpAll ts cap = some ts.length := by
  have := (dump_val h [] [] cap (ts.length + 1) ts.length (by simp) (by omega)).2
  simpa [dumpAll] using this

theorem tokens_val (w1 t w2 : List Nat) (ts : List Tok) (hw1 : Ws w1) (hw2 : Ws w2)
    (h : Val w1.length t ts) (hn : ts.length ≤ 100) : tokens (w1 ++ (t ++ w2)) = .ok ts := by
  unfold tokens
  rw [Jsmn.C72_json_text tokCount w1 t w2 ts hw1 hw2 h hn]
  simp only [dumpAll_val h]

/-! ## Values -/

theorem slice_le (js : List Nat) (t : Tok) : (slice js t).length ≤ js.length := by
  simp [slice]; omega

theorem look_find (js name : List Nat) (cap : Nat) : ∀ (toks : List Tok) (i : Nat),
    look js name cap i toks = find js name cap (js.length + 1) i toks := by
  intro toks
  induction toks with
  | nil => intro i; rfl
  | cons t rest ih =>
    intro i
    simp only [look, find]
    split
    · cases rest with
      | nil => rfl
      | cons u r => simp only [Nat.add_sub_cancel]; rw [List.take_of_length_le (slice_le js u)]
    · exact ih (i + 1)

theorem raw_le (fs : List Field) (name v : List Nat) (h : lookup fs name = some v) :
    v.length ≤ (fieldsText fs).length := by
  induction fs with
  | nil => simp [lookup] at h
  | cons f fs ih =>
    have hin : f.val.raw.length ≤ f.inner.length := by
      unfold Field.inner
      cases f.val <;> simp [FVal.raw, FVal.text] <;> omega
    have hsub : f.inner.length ≤ (fieldsText (f :: fs)).length ∧
        (fieldsText fs).length ≤ (fieldsText (f :: fs)).length := by
      cases fs with
      | nil => simp [fieldsText]; omega
      | cons g fs => simp [fieldsText]; omega
    by_cases hk : f.key = name
    · simp [lookup, hk] at h
      subst h
      omega
    · have : lookup (f :: fs) name = lookup fs name := by simp [lookup, hk]
      rw [this] at h
      have := ih h
      omega

theorem look_doc (d : Doc) (name : List Nat) (hn : d.name ≠ name) (hv : NotAValue d.fields name) :
    look d.text name tokCount 1 (d.toks.drop 1) =
      match lookup d.fields name with
      | none => .absent
      | some v => .value v := by
  have h := Voucher.retrieve_doc d name tokCount (d.text.length + 1) hn hv
  rw [look_find]
  unfold retrieve at h
  rw [h]
  cases hl : lookup d.fields name with
  | none => rfl
  | some v =>
    have := raw_le _ _ _ hl
    simp only [Nat.add_sub_cancel]
    rw [List.take_of_length_le]
    simp [Doc.text, Doc.inner]
    omega

/-- The tokens of an object. -/
def objToks (fs : List Field) : List Tok :=
  ⟨.object, 0, some (0 + (fieldsText fs).length + 2), fs.length⟩ :: fieldsToks 1 fs

theorem look_obj (fs : List Field) (name : List Nat) (hv : NotAValue fs name) :
    look (123 :: (fieldsText fs ++ [125])) name tokCount 1 ((objToks fs).drop 1) =
      match lookup fs name with
      | none => .absent
      | some v => .value v := by
  rw [look_find]
  have h := Voucher.find_fields (123 :: (fieldsText fs ++ [125])) name tokCount
    ((123 :: (fieldsText fs ++ [125])).length + 1) fs [123] [125] 1 1 (by simp) (by simp) hv
  unfold objToks
  rw [List.drop_succ_cons, List.drop_zero, h]
  cases hl : lookup fs name with
  | none => rfl
  | some v =>
    have := raw_le _ _ _ hl
    simp only [Nat.add_sub_cancel]
    rw [List.take_of_length_le]
    simp; omega

theorem obj_val (fs : List Field) (h1 : fs ≠ []) (h2 : ∀ f ∈ fs, f.Ok) :
    Val 0 (123 :: (fieldsText fs ++ [125])) (objToks fs) :=
  Val.cont true 0 (fieldsText fs) fs.length _ (Voucher.items_fields 1 fs h1 h2)

theorem tokens_obj (fs : List Field) (h1 : fs ≠ []) (h2 : ∀ f ∈ fs, f.Ok) (hn : fs.length ≤ 49) :
    tokens (123 :: (fieldsText fs ++ [125])) = .ok (objToks fs) := by
  have ws0 : Ws [] := fun c hc => by cases hc
  have := tokens_val [] (123 :: (fieldsText fs ++ [125])) [] (objToks fs) ws0 ws0 (obj_val fs h1 h2)
    (by simp [objToks, Voucher.fieldsToks_length]; omega)
  simpa using this

theorem tokens_doc (d : Doc) (h : d.Ok) (hn : d.fields.length ≤ 48) : tokens d.text = .ok d.toks :=
  tokens_val d.w0 _ d.we d.toks h.w0 h.we (Voucher.doc_val d h)
    (by simp [Doc.toks, Voucher.fieldsToks_length]; omega)

end Verif.SrvBrski
