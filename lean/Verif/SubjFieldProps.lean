import Verif.SubjFieldModel
import Verif.SubjFieldSpec

/-!
# C140: whose name a certificate bears, byte for byte
-/
namespace Verif.SubjField
open Verif.Safe (Buf strnlen strnlenS strcmpS strncmp)
open Verif.Server (HdrRes Mfg)
open Spec

/-- The text of a value: what is before the first zero byte. -/
def text (v : List Nat) : List Nat := v.takeWhile (· ≠ 0)

/-- The text of the first value of a field. -/
def textOf (name : Name) (nid : Nat) : Option (List Nat) := (name.find? fun e => e.1 == nid).map fun e => text e.2

theorem findField_eq (name : Name) (nid : Nat) :
    findField name nid = (name.find? fun e => e.1 == nid).map fun e => e.2 ++ [0] := by
  induction name with
  | nil => rfl
  | cons e r ih =>
    by_cases h : e.1 = nid
    · simp [findField, List.findIdx?_cons, h]
    · have hb : (e.1 == nid) = false := by simpa using h
      rw [List.find?_cons, hb]
      rw [← ih]
      unfold findField
      rw [List.findIdx?_cons, hb]
      simp only [Bool.false_eq_true, if_false]
      cases hf : r.findIdx? (fun e => e.1 == nid) with
      | none => rfl
      | some i => simp

theorem first_iff (name : Name) (nid : Nat) (v : List Nat) :
    First name nid v ↔ (name.find? fun e => e.1 == nid).map (·.2) = some v := by
  induction name with
  | nil => exact ⟨fun h => (by cases h), fun h => (by simp at h)⟩
  | cons e r ih =>
    by_cases h : e.1 = nid
    · have hb : (e.1 == nid) = true := by simpa using h
      rw [List.find?_cons, hb]
      constructor
      · intro hf
        cases hf with
        | here => rfl
        | later _ _ _ _ hne _ => exact absurd h hne
      · intro hs
        obtain ⟨x, y⟩ := e
        simp at hs h
        subst hs; subst h
        exact .here _ _ _
    · have hb : (e.1 == nid) = false := by simpa using h
      rw [List.find?_cons, hb]
      constructor
      · intro hf
        cases hf with
        | here => exact absurd rfl h
        | later _ _ _ _ _ hr => exact ih.1 hr
      · intro hs
        exact .later _ _ _ _ h (ih.2 hs)

theorem strnlen_text (v : List Nat) (k : Nat) : strnlen (v ++ [0]) k = some ((text v).take k).length := by
  induction v generalizing k with
  | nil => cases k <;> simp [strnlen, text]
  | cons c r ih =>
    cases k with
    | zero => simp [strnlen]
    | succ k =>
      by_cases hc : c = 0
      · simp [strnlen, text, hc]
      · have ht : text (c :: r) = c :: text r := by simp [text, hc]
        rw [ht, List.cons_append, strnlen, if_neg hc, ih k]
        simp

theorem strncmp_text (a b : List Nat) (k : Nat) (h : ((text a).take k).length = ((text b).take k).length) :
    ∃ i, strncmp ((text a).take k).length (a ++ [0]) (b ++ [0]) = some i
      ∧ (i = 0 ↔ (text a).take k = (text b).take k) := by
  induction k generalizing a b with
  | zero => exact ⟨0, by simp [strncmp], by simp⟩
  | succ k ih =>
    cases a with
    | nil =>
      have hb : (text b).take (k + 1) = [] := by
        have : ((text b).take (k + 1)).length = 0 := by rw [← h]; simp [text]
        exact List.length_eq_zero_iff.1 this
      exact ⟨0, by simp [text, strncmp], by rw [hb]; simp [text]⟩
    | cons c r =>
      by_cases hc : c = 0
      · have ha : text (c :: r) = [] := by simp [text, hc]
        have hb : (text b).take (k + 1) = [] := by
          have : ((text b).take (k + 1)).length = 0 := by rw [← h, ha]; simp
          exact List.length_eq_zero_iff.1 this
        rw [ha, hb]
        exact ⟨0, by simp [strncmp], by simp⟩
      · have ha : text (c :: r) = c :: text r := by simp [text, hc]
        cases b with
        | nil => rw [ha] at h; simp [text] at h
        | cons d s =>
          by_cases hd : d = 0
          · rw [ha] at h; simp [text, hd] at h
          · have hb : text (d :: s) = d :: text s := by simp [text, hd]
            rw [ha, hb] at h ⊢
            simp only [List.take_succ_cons, List.length_cons, Nat.add_right_cancel_iff] at h
            obtain ⟨i, h1, h2⟩ := ih r s h
            simp only [List.take_succ_cons, List.length_cons, List.cons_append, strncmp]
            by_cases hcd : c = d
            · refine ⟨i, ?_, ?_⟩
              · rw [if_neg (by simpa using hcd), if_neg hc]; exact h1
              · rw [h2, hcd]; simp
            · refine ⟨(c : Int) - d, ?_, ?_⟩
              · rw [if_pos hcd]
              · constructor
                · intro hz; exact absurd (by omega) hcd
                · intro hz; simp at hz; exact absurd hz.1 hcd

/-! ## The comparison as a decision over texts -/

/-- The comparison of two values in memory: the lengths, and what `strcmp_s` makes of them. -/
theorem compare (a b : List Nat) :
    strnlenS (some (a ++ [0])) 256 = some (Server.cap (text a)).length
    ∧ ((Server.cap (text a)).length = (Server.cap (text b)).length →
      (Server.cap (text a) = [] → strcmpS (some (a ++ [0])) (Server.cap (text a)).length (some (b ++ [0])) = some (.zerol, none))
      ∧ (Server.cap (text a) ≠ [] → ∃ i, strcmpS (some (a ++ [0])) (Server.cap (text a)).length (some (b ++ [0])) = some (.ok, some i)
          ∧ (i = 0 ↔ Server.cap (text a) = Server.cap (text b)))) := by
  refine ⟨strnlen_text a 256, fun h => ⟨fun h0 => by rw [h0]; rfl, fun hn => ?_⟩⟩
  obtain ⟨i, h1, h2⟩ := strncmp_text a b 256 h
  refine ⟨i, ?_, h2⟩
  have : (Server.cap (text a)).length ≠ 0 := fun h => hn (List.length_eq_zero_iff.1 h)
  unfold strcmpS
  simp only [this, if_false]
  unfold Server.cap at *
  rw [h1]; rfl

theorem getField_eq (name : Name) (nid : Nat) :
    getField name nid = (match (name.find? fun e => e.1 == nid) with
      | none => (.ecaErr, none)
      | some e => (.good, some (e.2 ++ [0]))) := by
  unfold getField
  rw [findField_eq]
  cases name.find? (fun e => e.1 == nid) <;> rfl

/-- What the branch for manufacturers decides, in terms of texts. -/
def mfgText (a b : Option (List Nat)) : HdrRes :=
  match a with
  | none => .csrCheckFail
  | some a =>
    match b with
    | none => .csrCheckFail
    | some b =>
      if (Server.cap a).length ≠ (Server.cap b).length then .csrCheckFail
      else if Server.cap a = [] then .ecaErr
      else if Server.cap a == Server.cap b then .good else .csrCheckFail

theorem mfgBranch_eq (peer csr : Name) (nid : Nat) :
    mfgBranch peer csr nid = some (mfgText (textOf peer nid) (textOf csr nid)) := by
  unfold mfgBranch textOf
  rw [getField_eq, getField_eq]
  cases peer.find? (fun e => e.1 == nid) with
  | none => rfl
  | some ea =>
    cases csr.find? (fun e => e.1 == nid) with
    | none => rfl
    | some eb =>
      obtain ⟨h1, h2⟩ := compare ea.2 eb.2
      obtain ⟨h3, -⟩ := compare eb.2 ea.2
      simp only [h1, h3, Option.map_some, mfgText]
      by_cases hl : (Server.cap (text ea.2)).length = (Server.cap (text eb.2)).length
      · obtain ⟨h4, h5⟩ := h2 hl
        rw [if_neg (by simpa using hl), if_neg (by simpa using hl)]
        by_cases h0 : Server.cap (text ea.2) = []
        · rw [h4 h0, if_pos h0]
        · obtain ⟨i, h6, h7⟩ := h5 h0
          rw [h6, if_neg h0]
          by_cases hi : i = 0
          · simp [hi, h7.1 hi]
          · have : ¬ Server.cap (text ea.2) = Server.cap (text eb.2) := fun h => hi (h7.2 h)
            simp [hi, this]
      · rw [if_pos hl, if_pos hl]

theorem localLoop_eq (peer csr : Name) (ms : List Mfg) (ind : Int) :
    ∃ i, localLoop peer csr ind ms = some i
      ∧ (decide (i ≠ 0) = Server.localLoop (textOf peer) (textOf csr) (decide (ind ≠ 0)) ms) := by
  induction ms generalizing ind with
  | nil => exact ⟨ind, rfl, rfl⟩
  | cons m ms ih =>
    unfold localLoop Server.localLoop
    by_cases ha : m.active = true
    · rw [if_pos ha, if_pos ha]
      rw [getField_eq, getField_eq]
      unfold textOf
      cases hp : peer.find? (fun e => e.1 == m.nid) with
      | none => exact ih 1
      | some ea =>
        cases hc : csr.find? (fun e => e.1 == m.nid) with
        | none => exact ih 1
        | some eb =>
          obtain ⟨h1, h2⟩ := compare ea.2 eb.2
          obtain ⟨h3, -⟩ := compare eb.2 ea.2
          simp only [h1, h3, Option.map_some]
          by_cases hl : (Server.cap (text ea.2)).length = (Server.cap (text eb.2)).length
          · obtain ⟨h4, h5⟩ := h2 hl
            rw [if_neg (by simpa using hl), if_neg (by simpa using hl)]
            by_cases h0 : Server.cap (text ea.2) = []
            · rw [h4 h0]
              simp only [h0, if_true, Option.getD_none]
              by_cases hi : ind = 0
              · exact ⟨0, by simp [hi], by simp [hi]⟩
              · obtain ⟨j, hj1, hj2⟩ := ih ind
                refine ⟨j, by rw [if_neg hi]; exact hj1, ?_⟩
                simp only [hi, ne_eq, not_false_eq_true, decide_true, if_true] at hj2 ⊢
                exact hj2
            · obtain ⟨i, h6, h7⟩ := h5 h0
              rw [h6]
              simp only [h0, if_false, Option.getD_some]
              by_cases hi : i = 0
              · refine ⟨0, by simp [hi], by simp [h7.1 hi]⟩
              · have hne : ¬ Server.cap (text ea.2) = Server.cap (text eb.2) := fun h => hi (h7.2 h)
                obtain ⟨j, hj1, hj2⟩ := ih i
                refine ⟨j, by rw [if_neg hi]; exact hj1, ?_⟩
                have hb : (Server.cap (text ea.2) == Server.cap (text eb.2)) = false := by simpa using hne
                simp only [hi, ne_eq, not_false_eq_true, decide_true, hb, Bool.not_false, if_true] at hj2 ⊢
                exact hj2
          · rw [if_pos hl, if_pos hl]
            exact ih 1
    · rw [if_neg ha, if_neg ha]
      exact ih ind

/-- The check over bytes is the check of the model of the server over texts, where the text of a field is what
is before the first zero byte of its first value; nothing is undefined. -/
theorem C140_texts (ms : List Mfg) (peer csr : Name) (index : Int) (h : index < ms.length)
    (cfg : Server.Cfg) (tls : Server.Tls) (req : Server.Csr) (hm : cfg.mfgs = some ms)
    (hp : tls.peerField = textOf peer) (hc : req.field = textOf csr) :
    check (some (some ms)) (some peer) (some csr) index
      = some (Server.csrCheck cfg tls req (if 0 ≤ index then some index.toNat else none)) := by
  unfold check Server.csrCheck
  rw [hm, hp, hc]
  by_cases hi : 0 ≤ index
  · simp only [hi, if_true]
    have hlt : index.toNat < ms.length := by omega
    rw [List.getElem?_eq_getElem hlt]
    simp only [mfgBranch_eq, mfgText]
    cases textOf peer ms[index.toNat].nid with
    | none => rfl
    | some a => cases textOf csr ms[index.toNat].nid <;> rfl
  · simp only [hi, if_false]
    obtain ⟨i, h1, h2⟩ := localLoop_eq peer csr ms 0
    rw [h1]
    simp only [Option.map_some, ne_eq, not_true_eq_false, decide_false] at h2 ⊢
    rw [← h2]
    by_cases h0 : i = 0 <;> simp [h0]

/-- No field of a name, however it was encoded, makes the check or the header undefined. -/
theorem C140_safe (ctx : Option (Option (List Mfg))) (peer csr : Option Name) (index : Int)
    (h : ∀ ms, ctx = some (some ms) → index < ms.length) (pwd : List Nat) (name : Name) (nid : Nat) :
    check ctx peer csr index ≠ none ∧ header (pwd ++ [0]) name nid ≠ none := by
  constructor
  · rcases ctx with _ | _ | ms
    · simp [check]
    · rcases peer with _ | peer <;> rcases csr with _ | csr <;> simp [check]
    · rcases peer with _ | peer
      · simp [check]
      rcases csr with _ | csr
      · simp [check]
      have hl := h ms rfl
      unfold check
      by_cases hi : 0 ≤ index
      · have hlt : index.toNat < ms.length := by omega
        simp only [hi, if_true, List.getElem?_eq_getElem hlt, mfgBranch_eq]
        simp
      · obtain ⟨i, h1, -⟩ := localLoop_eq peer csr ms 0
        simp [hi, h1]
  · unfold header
    rw [getField_eq]
    cases name.find? (fun e => e.1 == nid) with
    | none => simp
    | some e => simp [strndup, strnlen_text]

example : check (some (some [⟨13, true, true, 1⟩])) (some [(13, [100, 101, 118, 49])]) (some [(13, [100, 101, 118, 49])]) 0 = some .good := by
  decide +kernel

/-! ## Ordinary values -/

theorem text_plain (v : List Nat) (h : 0 ∉ v) : text v = v := by
  induction v with
  | nil => rfl
  | cons c r ih =>
    have hc : c ≠ 0 := fun h0 => h (h0 ▸ List.mem_cons_self)
    have := ih (fun h0 => h (List.mem_cons_of_mem _ h0))
    have ht : text (c :: r) = c :: text r := by simp [text, hc]
    rw [ht, this]

theorem cap_plain (v : List Nat) (h : Plain v) : Server.cap (text v) = v := by
  rw [text_plain v h.2.1]
  exact List.take_of_length_le h.2.2

theorem mfgText_plain (peer csr : Name) (nid : Nat) (hp : PlainIn peer nid) (hc : PlainIn csr nid) :
    mfgText (textOf peer nid) (textOf csr nid) = .good ↔ Same peer csr nid := by
  unfold textOf Same
  simp only [first_iff]
  cases h1 : peer.find? (fun e => e.1 == nid) with
  | none => simp [mfgText]
  | some ea =>
    cases h2 : csr.find? (fun e => e.1 == nid) with
    | none => simp [mfgText]
    | some eb =>
      have pa := hp ea.2 ((first_iff _ _ _).2 (by rw [h1]; rfl))
      have pb := hc eb.2 ((first_iff _ _ _).2 (by rw [h2]; rfl))
      simp only [Option.map_some, mfgText, cap_plain _ pa, cap_plain _ pb, pa.1, if_false, Option.some.injEq]
      constructor
      · intro h
        split at h
        · cases h
        · split at h
          · rename_i he
            exact ⟨ea.2, rfl, by simpa using (beq_iff_eq.1 he).symm⟩
          · cases h
      · rintro ⟨v, ha, hb⟩
        simp [ha, hb]

/-- A device with a manufacturer's certificate passes the check exactly if the request has the same value in that
manufacturer's field.  Left out: values that are empty, contain zero bytes or are longer than 256 bytes, and values
behind the first. -/
theorem C140_device_partial (ms : List Mfg) (i : Nat) (m : Mfg) (hm : ms[i]? = some m) (peer csr : Name)
    (hp : PlainIn peer m.nid) (hc : PlainIn csr m.nid) :
    check (some (some ms)) (some peer) (some csr) i = some .good ↔ Same peer csr m.nid := by
  have : check (some (some ms)) (some peer) (some csr) i = mfgBranch peer csr m.nid := by
    simp [check, hm]
  rw [this, mfgBranch_eq, Option.some.injEq]
  exact mfgText_plain peer csr m.nid hp hc

/-- Witness for the hypotheses: a serial number that is repeated. -/
example : PlainIn [(13, [100, 101, 118, 49]), (105, [115, 110])] 105 ∧ Same [(13, [100, 101, 118, 49]), (105, [115, 110])] [(105, [115, 110])] 105 := by
  refine ⟨?_, [115, 110], .later _ _ _ _ (by decide) (.here _ _ _), .here _ _ _⟩
  intro v hv
  cases hv with
  | later _ _ _ _ _ hr =>
    cases hr with
    | here => exact ⟨by decide, by decide, by decide⟩
    | later _ _ _ _ h _ => exact absurd rfl h

theorem localText_plain (peer csr : Name) (nid : Nat) (hp : PlainIn peer nid) (hc : PlainIn csr nid)
    (ms : List Mfg) (hn : ∀ m ∈ ms, m.active = true → m.nid = nid) (ind : Bool) :
    Server.localLoop (textOf peer) (textOf csr) ind ms = false ↔
      ((∃ m ∈ ms, m.active = true) ∧ Same peer csr nid) ∨ ((¬ ∃ m ∈ ms, m.active = true) ∧ ind = false) := by
  induction ms generalizing ind with
  | nil => simp [Server.localLoop]
  | cons m ms ih =>
    have ihm := ih (fun m' hm' => hn m' (List.mem_cons_of_mem _ hm'))
    by_cases ha : m.active = true
    · have hnid := hn m List.mem_cons_self ha
      have hex : ∃ m' ∈ m :: ms, m'.active = true := ⟨m, List.mem_cons_self, ha⟩
      have step : Server.localLoop (textOf peer) (textOf csr) ind (m :: ms) = false ↔
          Same peer csr nid ∨ Server.localLoop (textOf peer) (textOf csr) true ms = false := by
        have hg := mfgText_plain peer csr nid hp hc
        rw [← hg]
        rw [Server.localLoop, if_pos ha, hnid]
        unfold mfgText
        cases h1 : textOf peer nid with
        | none => simp
        | some a =>
          cases h2 : textOf csr nid with
          | none => simp
          | some b =>
            have hne : Server.cap a ≠ [] := by
              unfold textOf at h1
              cases h3 : peer.find? (fun e => e.1 == nid) with
              | none => rw [h3] at h1; simp at h1
              | some ea =>
                rw [h3] at h1
                simp only [Option.map_some, Option.some.injEq] at h1
                have pa := hp ea.2 ((first_iff _ _ _).2 (by rw [h3]; rfl))
                rw [← h1, cap_plain _ pa]
                exact pa.1
            simp only [hne, if_false]
            by_cases hl : (Server.cap a).length = (Server.cap b).length
            · by_cases he : Server.cap a = Server.cap b
              · simp [he]
              · have hb : (Server.cap a == Server.cap b) = false := by simpa using he
                simp [hl, hb]
            · simp [hl]
      rw [step, ihm true]
      constructor
      · rintro (h | ⟨h, h'⟩ | ⟨_, h⟩)
        · exact .inl ⟨hex, h⟩
        · exact .inl ⟨hex, h'⟩
        · cases h
      · rintro (⟨_, h⟩ | ⟨h, _⟩)
        · exact .inl h
        · exact absurd hex h
    · have hs : Server.localLoop (textOf peer) (textOf csr) ind (m :: ms) = Server.localLoop (textOf peer) (textOf csr) ind ms := by
        rw [Server.localLoop, if_neg ha]
      have he : (∃ m' ∈ m :: ms, m'.active = true) ↔ ∃ m' ∈ ms, m'.active = true := by
        constructor
        · rintro ⟨m', h, h'⟩
          rcases List.mem_cons.1 h with rfl | h
          · exact absurd h' ha
          · exact ⟨m', h, h'⟩
        · rintro ⟨m', h, h'⟩
          exact ⟨m', List.mem_cons_of_mem _ h, h'⟩
      rw [hs, ihm ind, he]

/-- A device with another certificate passes the check exactly if the request has the same value in the field, when all
registered manufacturers (there is one at least) use one field.  Left out: different fields, and the values left out in
`C140_device_partial`. -/
theorem C140_local_partial (ms : List Mfg) (nid : Nat) (hn : ∀ m ∈ ms, m.active = true → m.nid = nid)
    (hm : ∃ m ∈ ms, m.active = true) (index : Int) (hi : index < 0) (peer csr : Name)
    (hp : PlainIn peer nid) (hc : PlainIn csr nid) :
    check (some (some ms)) (some peer) (some csr) index = some .good ↔ Same peer csr nid := by
  obtain ⟨i, h1, h2⟩ := localLoop_eq peer csr ms 0
  have h3 := localText_plain peer csr nid hp hc ms hn false
  simp only [ne_eq, not_true_eq_false, decide_false] at h2
  rw [← h2] at h3
  unfold check
  have : ¬ 0 ≤ index := by omega
  simp only [this, if_false, h1, Option.map_some, Option.some.injEq]
  by_cases h0 : i = 0
  · simp only [h0, not_true_eq_false, ne_eq, if_false, true_iff]
    simp only [h0, not_true_eq_false, decide_false, true_iff] at h3
    rcases h3 with h | h
    · exact h.2
    · exact absurd hm h.1
  · simp only [h0, ne_eq, not_false_eq_true, if_true, reduceCtorEq, false_iff]
    intro hs
    have := h3.2 (.inl ⟨hm, hs⟩)
    simp [h0] at this

/-- Witness: two manufacturers with one field and a free slot; a request with another name is refused. -/
example : check (some (some [⟨105, true, true, 0⟩, ⟨105, true, true, 0⟩, ⟨0, false, false, 0⟩])) (some [(13, [97]), (105, [115, 110, 49])])
      (some [(105, [115, 110, 49])]) (-1) = some .good
    ∧ check (some (some [⟨105, true, true, 0⟩, ⟨105, true, true, 0⟩, ⟨0, false, false, 0⟩])) (some [(13, [97]), (105, [115, 110, 49])])
      (some [(105, [115, 110, 50])]) (-1) = some .csrCheckFail := by decide +kernel

/-- The user name in the header is the value of the field and the password the configured one.  Left out: the
values left out in `C140_device_partial`. -/
theorem C140_user_partial (peer : Name) (nid : Nat) (v pwd : List Nat) (hf : First peer nid v) (hv : Plain v)
    (hp : 0 ∉ pwd) (hl : pwd.length ≤ 256) :
    header (pwd ++ [0]) peer nid = some (.good, v, pwd) := by
  have cut : ∀ w : List Nat, 0 ∉ w → w.length ≤ 256 → strndup (w ++ [0]) = some w := by
    intro w h0 hw
    unfold strndup
    rw [strnlen_text, text_plain w h0, List.take_of_length_le hw]
    simp
  have hf' := (first_iff _ _ _).1 hf
  unfold header
  rw [getField_eq]
  cases h : peer.find? (fun e => e.1 == nid) with
  | none => rw [h] at hf'; simp at hf'
  | some e =>
    rw [h] at hf'
    simp only [Option.map_some, Option.some.injEq] at hf'
    simp only [hf', cut v hv.2.1 hv.2.2, cut pwd hp hl]

example : header [99, 105, 115, 99, 111, 0] [(13, [100, 101, 118, 49])] 13 = some (.good, [100, 101, 118, 49], [99, 105, 115, 99, 111]) := by decide +kernel

/-- Without the field there is no header, and no request passes the check of a manufacturer's device. -/
theorem C140_absent (peer csr : Name) (nid : Nat) (h : ¬ ∃ v, First peer nid v) (pwd : Buf) (ms : List Mfg) (i : Nat) (m : Mfg)
    (hm : ms[i]? = some m) (hn : m.nid = nid) :
    header pwd peer nid = some (.ecaErr, [], []) ∧ check (some (some ms)) (some peer) (some csr) i = some .csrCheckFail := by
  have hnone : peer.find? (fun e => e.1 == nid) = none := by
    cases hf : peer.find? (fun e => e.1 == nid) with
    | none => rfl
    | some e => exact absurd ⟨e.2, (first_iff _ _ _).2 (by rw [hf]; rfl)⟩ h
  constructor
  · unfold header
    rw [getField_eq, hnone]
  · have : check (some (some ms)) (some peer) (some csr) i = mfgBranch peer csr m.nid := by simp [check, hm]
    rw [this, mfgBranch_eq, hn]
    unfold textOf mfgText
    rw [hnone]
    rfl

example : ¬ ∃ v, First [(13, [100, 101, 118, 49])] 105 v := by
  rintro ⟨v, h⟩
  cases h with
  | later _ _ _ _ _ hr => cases hr

/-- Missing arguments and a missing list are refused. -/
theorem C140_arguments (peer csr : Option Name) (index : Int) (ctx : Option (Option (List Mfg))) :
    check none peer csr index = some .ecaErr ∧ check ctx none csr index = some .ecaErr ∧ check ctx peer none index = some .ecaErr
    ∧ (peer ≠ none → csr ≠ none → check (some none) peer csr index = some .csrCheckFail) := by
  refine ⟨by simp [check], by rcases ctx with _ | c <;> simp [check], by rcases ctx with _ | c <;> rcases peer with _ | p <;> simp [check], ?_⟩
  intro h1 h2
  rcases peer with _ | p
  · exact absurd rfl h1
  rcases csr with _ | c
  · exact absurd rfl h2
  rfl

/-! ## What the check does not see -/

/-- What follows a zero byte in a value is not compared: any two names pass that agree before it. -/
theorem C140_zero_byte_false (s x y : List Nat) (h0 : 0 ∉ s) (hs : s ≠ []) (nid : Nat) (ms : List Mfg) (i : Nat) (m : Mfg)
    (hm : ms[i]? = some m) (hn : m.nid = nid) :
    check (some (some ms)) (some [(nid, s ++ 0 :: x)]) (some [(nid, s ++ 0 :: y)]) i = some .good := by
  have ht : ∀ z, text (s ++ 0 :: z) = s := by
    intro z
    unfold text
    rw [List.takeWhile_append_of_pos]
    · simp
    · intro c hc
      simp only [ne_eq, decide_not, Bool.not_eq_true', decide_eq_false_iff_not]
      exact fun h => h0 (h ▸ hc)
  have : check (some (some ms)) (some [(nid, s ++ 0 :: x)]) (some [(nid, s ++ 0 :: y)]) i
      = mfgBranch [(nid, s ++ 0 :: x)] [(nid, s ++ 0 :: y)] m.nid := by simp [check, hm]
  rw [this, mfgBranch_eq, hn]
  have hne : Server.cap s ≠ [] := by
    cases s with
    | nil => exact absurd rfl hs
    | cons c r => simp [Server.cap]
  simp [textOf, ht, mfgText, hne]

example : (0 ∉ [100, 101, 118, 49]) ∧ [100, 101, 118, 49] ≠ [] ∧ [100, 101, 118, 49, 0, 46, 97] ≠ [100, 101, 118, 49, 0, 46, 98] := by decide

/-- Devices whose names are written as a `BMPString` all have the empty user name, and each may ask for the name of
any other when its certificate is not a manufacturer's. -/
theorem C140_wide_false (s t : List Nat) (hs : s ≠ []) (ht : t ≠ []) (nid : Nat) (m : Mfg) (ha : m.active = true) (hn : m.nid = nid)
    (ms : List Mfg) (index : Int) (hi : index < 0) :
    check (some (some (m :: ms))) (some [(nid, wide s)]) (some [(nid, wide t)]) index = some .good
    ∧ header [99, 105, 115, 99, 111, 0] [(nid, wide s)] nid = some (.good, [], [99, 105, 115, 99, 111]) := by
  have hw : ∀ u : List Nat, u ≠ [] → text (wide u) = [] := by
    intro u hu
    cases u with
    | nil => exact absurd rfl hu
    | cons c r => simp [wide, text]
  have : ¬ 0 ≤ index := by omega
  constructor
  · obtain ⟨i, h1, h2⟩ := localLoop_eq [(nid, wide s)] [(nid, wide t)] (m :: ms) 0
    have hz : Server.localLoop (textOf [(nid, wide s)]) (textOf [(nid, wide t)]) (decide ((0 : Int) ≠ 0)) (m :: ms) = false := by
      unfold Server.localLoop
      simp [ha, hn, textOf, hw s hs, hw t ht, Server.cap]
    rw [hz] at h2
    have h0 : i = 0 := by simpa using h2
    simp [check, this, h1, h0]
  · have hl : strnlen (wide s ++ [0]) 256 = some 0 := by
      rw [strnlen_text, hw s hs]; rfl
    unfold header
    rw [getField_eq]
    simp only [List.find?_cons, beq_self_eq_true, strndup, hl, Option.map_some, List.take_zero]
    rfl

example : wide [97] = [0, 97] ∧ wide [97] ≠ wide [98] := by decide

/-- Behind 256 bytes nothing is compared, and the user name is cut off there. -/
theorem C140_long_false (s x y : List Nat) (h0 : 0 ∉ s) (hs : s.length = 256) (nid : Nat) (ms : List Mfg) (i : Nat) (m : Mfg)
    (hm : ms[i]? = some m) (hn : m.nid = nid) :
    check (some (some ms)) (some [(nid, s ++ x)]) (some [(nid, s ++ y)]) i = some .good := by
  have ht : ∀ z, Server.cap (text (s ++ z)) = s := by
    intro z
    unfold text Server.cap
    rw [List.takeWhile_append_of_pos]
    · rw [List.take_append_of_le_length (by omega), List.take_of_length_le (by omega)]
    · intro c hc
      simp only [ne_eq, decide_not, Bool.not_eq_true', decide_eq_false_iff_not]
      exact fun h => h0 (h ▸ hc)
  have : check (some (some ms)) (some [(nid, s ++ x)]) (some [(nid, s ++ y)]) i
      = mfgBranch [(nid, s ++ x)] [(nid, s ++ y)] m.nid := by simp [check, hm]
  rw [this, mfgBranch_eq, hn]
  have hne : s ≠ [] := by
    intro h
    rw [h] at hs
    simp at hs
  simp [textOf, ht, mfgText, hne]

example : 0 ∉ List.replicate 256 97 ∧ (List.replicate 256 97).length = 256 := by decide +kernel

/-- Only the first value counts: a request may name any further devices behind it. -/
theorem C140_second_false (v w : List Nat) (hv : Plain v) (nid : Nat) (ms : List Mfg) (i : Nat) (m : Mfg)
    (hm : ms[i]? = some m) (hn : m.nid = nid) :
    check (some (some ms)) (some [(nid, v)]) (some [(nid, v), (nid, w)]) i = some .good
    ∧ All [(nid, v), (nid, w)] nid = [v, w] := by
  constructor
  · have : check (some (some ms)) (some [(nid, v)]) (some [(nid, v), (nid, w)]) i
        = mfgBranch [(nid, v)] [(nid, v), (nid, w)] m.nid := by simp [check, hm]
    rw [this, mfgBranch_eq, hn]
    simp [textOf, mfgText, cap_plain v hv, hv.1]
  · simp [All]

example : Plain [100, 101, 118, 49] := ⟨by decide, by decide, by decide⟩

end Verif.SubjField
