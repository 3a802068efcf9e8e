import Verif.ClientReqModel
import Verif.ClientRespProps
import Verif.HttpConnProps
import Verif.EstUriProps
import Verif.AuthHdrProps

/-!
# Properties of the request the client sends (C61, C62)
-/
namespace Verif.ClientReq
open Verif.EstUri (Op)
open Verif.ClientResp (decimal decimal_ok decimal_digits decimal_head wf_of)
open Verif.HttpHdr (Hdr WellFormed line lines getHeader parseRequest)

/-! ## C61 -/

theorem put_append (a r : List (Option Nat)) (bytes : List Nat) (h : bytes.length ≤ r.length)
    (n : Nat) (hn : n = a.length) :
    put (a ++ r) n bytes = some ((a ++ bytes.map some) ++ r.drop bytes.length) := by
  subst hn
  unfold put
  rw [if_pos (by simp; omega)]
  simp [List.drop_append]

theorem put_length {b b' : List (Option Nat)} {n : Nat} {bytes : List Nat}
    (h : put b n bytes = some b') : b'.length = b.length := by
  unfold put at h
  split at h
  · injection h with h; subst h; simp; omega
  · cases h

theorem snprintf_length {b b' : List (Option Nat)} {n : Nat} {s : Int} {t : List Nat}
    (h : snprintf b n s t = some b') : b'.length = b.length := by
  unfold snprintf at h
  split at h
  · injection h with h; rw [h]
  · split at h <;> exact put_length h

theorem copyData_length {b b' : List (Option Nat)} {n : Nat} {t : List Nat}
    (h : copyData b n t = some b') : b'.length = b.length := by
  unfold copyData at h
  split at h
  · injection h with h; rw [h]
  · exact put_length h

theorem freshBuf_length (h : List Nat) (hh : h.length ≤ 5124) : (freshBuf h).length = 5125 := by
  unfold freshBuf totalLen; simp; omega

/-- The first line end always fits. -/
theorem first_crlf (h : List Nat) (hh : h.length ≤ 5122) :
    snprintf (freshBuf h) h.length ((totalLen : Int) - h.length) [13, 10] =
      some ((h ++ [13, 10]).map some ++ some 0 :: List.replicate (5122 - h.length) none) := by
  unfold snprintf totalLen
  rw [if_neg (by omega), if_neg (by omega)]
  have e : List.take ((((5125 : Nat) : Int) - h.length).toNat - 1) [13, 10] = [13, 10] := by
    rw [List.take_of_length_le]; simp; omega
  rw [e]
  unfold freshBuf
  rw [put_append _ _ _ (by simp [totalLen]; omega) _ (by simp)]
  have : 5124 - h.length = (5122 - h.length) + 2 := by omega
  simp [totalLen, this, List.replicate_succ]

/-- C61, the part that holds: if the header and the CSR leave room for the terminators, and the
CSR text has at most 4096 characters, then header, line end, CSR and line end are sent. -/
theorem C61_sent_intact_partial (h data : List Nat) (hne : h ≠ []) (hd : data.length ≤ 4096)
    (hl : h.length + data.length + 5 ≤ 5125) :
    sendPost h data = .sent ((h ++ ([13, 10] ++ (data ++ [13, 10]))).map some) := by
  unfold sendPost
  rw [if_neg hne, first_crlf h (by omega)]
  simp only
  unfold copyData
  rw [if_neg (by unfold dataMax; omega), put_append _ _ _ (by simp; omega) _ (by simp)]
  simp only
  unfold snprintf totalLen
  rw [if_neg (by omega), if_neg (by omega)]
  have e : List.take ((((5125 : Nat) : Int) - ((h.length : Int) + 2 + data.length)).toNat - 1) [13, 10]
      = [13, 10] := by
    rw [List.take_of_length_le]; simp; omega
  rw [e, put_append _ _ _ (by simp; omega) _ (by simp; omega)]
  simp only [sslWrite]
  rw [if_pos (by simp; omega)]
  congr 1
  rw [List.append_assoc, List.take_append, List.take_of_length_le (by simp; omega)]
  have : h.length + 2 + data.length + 2 - (List.map some (h ++ [13, 10]) ++ List.map some data).length
      = 2 := by simp; omega
  rw [this]
  simp

example : sendPost [80, 79, 83, 84, 32, 47, 32, 72, 84, 84, 80, 47, 49, 46, 49, 13, 10] [77, 73, 73, 61] =
    .sent ([80, 79, 83, 84, 32, 47, 32, 72, 84, 84, 80, 47, 49, 46, 49, 13, 10, 13, 10, 77, 73, 73, 61, 13, 10].map some) :=
  C61_sent_intact_partial _ _ (by simp) (by simp) (by simp)

/-- C61 for the requests without a body: exactly the header text and two line ends are sent; a
request for the CA certificates carries no credentials, whatever the client has. -/
theorem C61_cacerts_request (cfg : Cfg) (a : Auth)
    (hl : (getText cfg .cacerts).length ≤ 1024) :
    sendGet (buildGet cfg .cacerts a) =
      .sent ((getText cfg .cacerts ++ [13, 10, 13, 10]).map some) := by
  have hb : buildGet cfg .cacerts a = getText cfg .cacerts := by
    unfold buildGet
    simp only [if_neg (by decide : ¬ (Op.cacerts = Op.csrattrs))]
    rw [List.take_of_length_le (by unfold totalLen; omega)]
    rw [if_neg (by unfold hdrMax; omega)]
  have hne : getText cfg .cacerts ≠ [] := by simp [getText]
  rw [hb]
  unfold sendGet
  rw [C61_sent_intact_partial _ [] hne (by simp) (by simp; omega)]
  rfl

/-- C61: the same for the CSR attributes, where the authorization line is added if there is
one. -/
theorem C61_csrattrs_request (cfg : Cfg) (v : List Nat)
    (hl : (getText cfg .csrattrs).length + v.length + 17 ≤ 1024) :
    sendGet (buildGet cfg .csrattrs (.value v)) =
      .sent ((getText cfg .csrattrs ++ ([65, 117, 116, 104, 111, 114, 105, 122, 97, 116, 105, 111, 110, 58, 32] ++ v ++ [13, 10]) ++
        [13, 10, 13, 10]).map some) ∧
    sendGet (buildGet cfg .csrattrs .none) =
      .sent ((getText cfg .csrattrs ++ [13, 10, 13, 10]).map some) := by
  have ht : (getText cfg .csrattrs).take (totalLen - 1) = getText cfg .csrattrs :=
    List.take_of_length_le (by unfold totalLen; omega)
  have hne : getText cfg .csrattrs ≠ [] := by simp [getText]
  constructor
  · have hb : buildGet cfg .csrattrs (.value v) =
        getText cfg .csrattrs ++ ([65, 117, 116, 104, 111, 114, 105, 122, 97, 116, 105, 111, 110, 58, 32] ++ v ++ [13, 10]) := by
      unfold buildGet
      simp only [if_true, ht, addAuth]
      rw [List.take_of_length_le (by simp [totalLen]; omega), if_neg (by simp [hdrMax]; omega)]
      simp
    rw [hb]
    unfold sendGet
    rw [C61_sent_intact_partial _ [] (by simp) (by simp) (by simp; omega)]
    simp
  · have hb : buildGet cfg .csrattrs .none = getText cfg .csrattrs := by
      unfold buildGet
      simp only [if_true, ht, addAuth]
      rw [if_neg (by unfold hdrMax; omega)]
    rw [hb]
    unfold sendGet
    rw [C61_sent_intact_partial _ [] hne (by simp) (by simp; omega)]
    rfl

example : (getText ⟨[120], [115, 101, 114, 118, 101, 114, 46, 101, 120, 97, 109, 112, 108, 101], 8085, none⟩ .cacerts).length ≤ 1024 ∧
    sendGet (buildGet ⟨[120], [115, 101, 114, 118, 101, 114, 46, 101, 120, 97, 109, 112, 108, 101], 8085, none⟩ .cacerts (.value [66, 97, 115, 105, 99, 32, 100, 84, 112, 119])) =
    .sent ([71, 69, 84, 32, 47, 46, 119, 101, 108, 108, 45, 107, 110, 111, 119, 110, 47, 101, 115, 116, 47, 99, 97, 99, 101, 114, 116, 115, 32, 72, 84, 84, 80, 47, 49, 46, 49, 13, 10, 85, 115, 101, 114, 45, 65, 103, 101, 110, 116, 58, 32, 120, 13, 10, 67, 111, 110, 110, 101, 99, 116, 105, 111, 110, 58, 32, 99, 108, 111, 115, 101, 13, 10, 72, 111, 115, 116, 58, 32, 115, 101, 114, 118, 101, 114, 46, 101, 120, 97, 109, 112, 108, 101, 58, 56, 48, 56, 53, 13, 10, 65, 99, 99, 101, 112, 116, 58, 32, 42, 47, 42, 13, 10, 13, 10, 13, 10].map some) := by
  decide +kernel

/-- C61 is false of the code (1): a CSR text of more than 4096 characters is not copied, and
bytes of the heap that were never written are sent in its place. -/
theorem C61_uninitialised_sent_false (h data : List Nat) (hne : h ≠ []) (hd : 4096 < data.length)
    (hl : h.length + data.length + 5 ≤ 5125) :
    ∃ bytes, sendPost h data = .sent bytes ∧ bytes.length = h.length + data.length + 4 ∧
      bytes[h.length + 3]? = some none := by
  unfold sendPost
  rw [if_neg hne, first_crlf h (by omega)]
  simp only
  unfold copyData
  rw [if_pos (by unfold dataMax; omega)]
  simp only
  unfold snprintf totalLen
  rw [if_neg (by omega), if_neg (by omega)]
  have e : List.take ((((5125 : Nat) : Int) - ((h.length : Int) + 2 + data.length)).toNat - 1) [13, 10]
      = [13, 10] := by
    rw [List.take_of_length_le]; simp; omega
  rw [e]
  unfold put
  rw [if_pos (by simp; omega)]
  simp only [sslWrite]
  rw [if_pos (by simp; omega)]
  refine ⟨_, rfl, by simp; omega, ?_⟩
  rw [List.getElem?_take_of_lt (by omega), List.getElem?_append_left (by simp; omega),
    List.getElem?_take_of_lt (by omega), List.getElem?_append_right (by simp)]
  have : h.length + 3 - (List.map some (h ++ [13, 10])).length = 1 := by simp
  rw [this, List.getElem?_cons_succ, List.getElem?_replicate, if_pos (by omega)]

example : ∃ bytes, sendPost [71] (List.replicate 4097 65) = .sent bytes ∧
    bytes.length = 4102 ∧ bytes[4]? = some none :=
  by
    have h := C61_uninitialised_sent_false [71] (List.replicate 4097 65) (by simp)
      (by rw [List.length_replicate]; omega) (by rw [List.length_replicate]; decide)
    rw [List.length_replicate] at h
    exact h

/-- C61 is false of the code (2): if header and CSR are together larger than the buffer, memory
behind the buffer is accessed. -/
theorem C61_overrun_false (h data : List Nat) (hne : h ≠ []) (hh : h.length ≤ 5124)
    (hl : 5125 < h.length + data.length + 4) : sendPost h data = .ub := by
  unfold sendPost
  rw [if_neg hne]
  have hf := freshBuf_length h hh
  split
  · rfl
  · rename_i b1 h1
    have l1 := snprintf_length h1
    split
    · rfl
    · rename_i b2 h2
      have l2 := copyData_length h2
      split
      · rfl
      · rename_i b3 h3
        have l3 := snprintf_length h3
        unfold sslWrite
        rw [if_neg (by omega)]

/-- Exactly which requests are sent intact. -/
theorem C61_intact_iff_partial (h data : List Nat) (hne : h ≠ []) (hh : h.length ≤ 5124) :
    sendPost h data = .sent ((h ++ ([13, 10] ++ (data ++ [13, 10]))).map some) ↔
      data.length ≤ 4096 ∧ h.length + data.length + 5 ≤ 5125 := by
  constructor
  · intro hs
    by_cases h1 : 5125 < h.length + data.length + 4
    · rw [C61_overrun_false h data hne hh h1] at hs; cases hs
    · by_cases h2 : h.length + data.length + 4 = 5125
      · exfalso
        -- the last byte sent is the NUL
        unfold sendPost at hs
        rw [if_neg hne, first_crlf h (by omega)] at hs
        simp only at hs
        split at hs
        · cases hs
        · rename_i b2 hb2
          have l2 := copyData_length hb2
          simp at l2
          split at hs
          · cases hs
          · rename_i b3 hb3
            have l3 := snprintf_length hb3
            unfold snprintf totalLen at hb3
            rw [if_neg (by omega), if_neg (by omega)] at hb3
            have e : List.take ((((5125 : Nat) : Int) - ((h.length : Int) + 2 + data.length)).toNat - 1) [13, 10]
                = [13] := by
              have : ((((5125 : Nat) : Int) - ((h.length : Int) + 2 + data.length)).toNat - 1) = 1 := by omega
              rw [this]; rfl
            rw [e] at hb3
            unfold put at hb3
            rw [if_pos (by simp; omega)] at hb3
            injection hb3 with hb3
            unfold sslWrite at hs
            rw [if_pos (by omega)] at hs
            injection hs with hs
            have L : (List.take (h.length + 2 + data.length + 2) b3)[h.length + 2 + data.length + 1]?
                = some (some 0) := by
              rw [List.getElem?_take_of_lt (by omega), ← hb3,
                List.getElem?_append_right (by simp; omega),
                List.getElem?_append_left (by simp; omega)]
              have q : h.length + 2 + data.length + 1 -
                  (List.take (h.length + 2 + data.length) b2).length = 1 := by
                rw [List.length_take]; omega
              rw [q]; rfl
            have R : (h ++ ([13, 10] ++ (data ++ [13, 10])))[h.length + 2 + data.length + 1]?
                = some 10 := by
              rw [← List.append_assoc, ← List.append_assoc, List.getElem?_append_right (by simp; omega)]
              have q : h.length + 2 + data.length + 1 - (h ++ [13, 10] ++ data).length = 1 := by
                simp; omega
              rw [q]; rfl
            rw [hs, List.getElem?_map, R] at L
            cases L
      · refine ⟨?_, by omega⟩
        apply Nat.le_of_not_lt
        intro hd
        obtain ⟨bytes, e1, e2, e3⟩ := C61_uninitialised_sent_false h data hne hd (by omega)
        rw [e1] at hs
        injection hs with hs
        rw [hs, List.getElem?_map] at e3
        cases hx : (h ++ ([13, 10] ++ (data ++ [13, 10])))[h.length + 3]? with
        | none => rw [hx] at e3; cases e3
        | some c => rw [hx] at e3; cases e3
  · rintro ⟨h1, h2⟩
    exact C61_sent_intact_partial h data hne h1 h2

theorem addAuth_value (h v : List Nat) (hl : h.length + v.length + 17 ≤ 5124) :
    addAuth h (.value v) = h ++ ([65, 117, 116, 104, 111, 114, 105, 122, 97, 116, 105, 111, 110, 58, 32] ++ (v ++ [13, 10])) := by
  unfold addAuth totalLen
  simp only
  rw [List.take_of_length_le]
  simp
  omega

/-- C61 with values the API accepts: a server name of 255, a path segment of 128, a user name
and a password of 255 characters, and a CSR text of 4096 characters overrun the buffer. -/
theorem C61_reachable_false (cfg : Cfg) (seg user pwd csr : List Nat) (hs : cfg.server.length = 255)
    (hseg : cfg.seg = some seg) (hsl : seg.length = 128) (hua : cfg.ua.length ≤ 64)
    (hport : cfg.port < 65536)
    (hu : AuthHdr.Chars user) (hp : AuthHdr.Chars pwd) (hul : user.length = 255) (hpl : pwd.length = 255)
    (hc : csr.length = 4096) :
    ∃ v, AuthHdr.basicValue user pwd = some v ∧
      enrollRequest cfg .simpleEnroll (.value v) csr = .ub := by
  have hlen : (user ++ 58 :: pwd).length = 511 := by simp; omega
  have hb : Base64.Bytes (user ++ 58 :: pwd) := by
    intro c hc
    rcases List.mem_append.1 hc with h | h
    · exact (hu c h).1
    · rcases List.mem_cons.1 h with rfl | h
      · decide
      · exact (hp c h).1
  refine ⟨[66, 97, 115, 105, 99, 32] ++ Base64.enc (user ++ 58 :: pwd), ?_, ?_⟩
  · unfold AuthHdr.basicValue
    rw [List.take_of_length_le (by omega), AuthHdr.b64_eq 1020 _ hb (by simp) (by rw [hlen]; omega)]
    rfl
  · have hel := Base64.enc_length (user ++ 58 :: pwd)
    rw [hlen] at hel
    have hd1 : 1 ≤ (decimal cfg.port).length := List.length_pos_iff.2 (ClientResp.decimal_ne_nil _)
    have hd2 : (decimal cfg.port).length ≤ 5 := by
      unfold decimal; split
      · simp
      · unfold decimal; split
        · simp
        · unfold decimal; split
          · simp
          · unfold decimal; split
            · simp
            · unfold decimal; rw [if_pos (by omega)]; simp
    have hd3 : (decimal 4096).length = 4 := by decide +kernel
    have hpl1 : 400 ≤ (postText cfg .simpleEnroll 4096).length := by
      simp [postText, path, common, hseg, hsl, hs, hd3, uriName]; omega
    have hpl2 : (postText cfg .simpleEnroll 4096).length ≤ 800 := by
      simp [postText, path, common, hseg, hsl, hs, hd3, uriName]; omega
    unfold enrollRequest buildPost
    rw [hc, List.take_of_length_le (by unfold totalLen; omega)]
    simp only
    rw [addAuth_value _ _ (by simp; omega), if_neg (by simp)]
    apply C61_overrun_false
    · simp
    · simp; omega
    · rw [hc]; simp; omega

/-! ## C62 -/

/-- A printable text that can be a header value. -/
structure HeaderText (s : List Nat) : Prop where
  chars : ∀ c ∈ s, 32 ≤ c ∧ c ≤ 126
  start : s.head? ≠ some 32

theorem reqLen_line (w : List Nat) (hw : ∀ c ∈ w, 32 ≤ c ∧ c ≤ 126) (c : Nat) (rest : List Nat)
    (hc : c ≠ 13 ∧ c ≠ 10) (pos : Nat) :
    HttpConn.reqLenFrom pos (w ++ 13 :: 10 :: c :: rest) =
      HttpConn.reqLenFrom (pos + (w.length + 2)) (c :: rest) := by
  induction w generalizing pos with
  | nil =>
    simp only [List.nil_append, HttpConn.reqLenFrom]
    simp [HttpConn.badChar, hc.1, hc.2]
  | cons x w ih =>
    have hx := hw x (by simp)
    have ih := ih (fun c hc => hw c (by simp [hc])) (pos + 1)
    have hb : HttpConn.badChar x = false := by simp [HttpConn.badChar]; omega
    have h10 : x ≠ 10 := by omega
    have : pos + ((x :: w).length + 2) = pos + 1 + (w.length + 2) := by simp; omega
    rw [this, ← ih]
    cases w with
    | nil => simp [HttpConn.reqLenFrom, hb, h10]
    | cons y w => simp [HttpConn.reqLenFrom, hb, h10]

theorem reqLen_last (w : List Nat) (hw : ∀ c ∈ w, 32 ≤ c ∧ c ≤ 126) (rest : List Nat) (pos : Nat) :
    HttpConn.reqLenFrom pos (w ++ 13 :: 10 :: 13 :: 10 :: rest) = pos + (w.length + 4) := by
  induction w generalizing pos with
  | nil =>
    simp [HttpConn.reqLenFrom, HttpConn.badChar]; omega
  | cons x w ih =>
    have hx := hw x (by simp)
    have ih := ih (fun c hc => hw c (by simp [hc])) (pos + 1)
    have hb : HttpConn.badChar x = false := by simp [HttpConn.badChar]; omega
    have h10 : x ≠ 10 := by omega
    have : (pos : Int) + (((x :: w).length : Nat) + 4) = (pos + 1 : Nat) + ((w.length : Nat) + 4) := by
      simp; omega
    rw [this, ← ih]
    cases w with
    | nil => simp [HttpConn.reqLenFrom, hb, h10]
    | cons y w => simp [HttpConn.reqLenFrom, hb, h10]

/-- A header line made of printable characters. -/
def Printable (h : Hdr) : Prop :=
  (∀ c ∈ h.name, 32 ≤ c ∧ c ≤ 126) ∧ ∀ c ∈ h.value, 32 ≤ c ∧ c ≤ 126

theorem reqLen_lines (hs : List (Hdr × Nat)) (hw : ∀ p ∈ hs, WellFormed p.1)
    (hp : ∀ p ∈ hs, Printable p.1) (hne : hs ≠ []) (rest : List Nat) (pos : Nat) :
    HttpConn.reqLenFrom pos (lines hs (13 :: 10 :: rest)) = pos + (lines hs [13, 10]).length := by
  induction hs generalizing pos with
  | nil => exact absurd rfl hne
  | cons p hs ih =>
    obtain ⟨h, k⟩ := p
    have h1 := hp (h, k) (by simp)
    have hl : ∀ t, lines ((h, k) :: hs) t =
        (h.name ++ 58 :: (List.replicate k 32 ++ h.value)) ++ 13 :: 10 :: lines hs t := by
      intro t; simp [lines, line]
    have hc : ∀ c ∈ h.name ++ 58 :: (List.replicate k 32 ++ h.value), 32 ≤ c ∧ c ≤ 126 := by
      intro c hc
      simp only [List.mem_append, List.mem_cons, List.mem_replicate] at hc
      rcases hc with hc | hc | hc | hc
      · exact h1.1 c hc
      · omega
      · omega
      · exact h1.2 c hc
    rw [hl, hl]
    cases hs with
    | nil =>
      simp only [lines]
      rw [reqLen_last _ hc]
      simp; omega
    | cons q hs =>
      have ih := ih (fun p hp => hw p (by simp [hp])) (fun p h => hp p (by simp [h])) (by simp)
        (pos + ((h.name ++ 58 :: (List.replicate k 32 ++ h.value)).length + 2))
      obtain ⟨h', k'⟩ := q
      have hw' := hw (h', k') (by simp)
      cases hn : h'.name with
      | nil => exact absurd hn hw'.nonempty
      | cons c n =>
        have hcc := hw'.name c (by rw [hn]; simp)
        have e : ∀ t, lines ((h', k') :: hs) t = c :: (n ++ 58 :: (List.replicate k' 32 ++ (h'.value ++
            13 :: 10 :: lines hs t))) := by intro t; simp [lines, line, hn]
        rw [e, reqLen_line _ hc c _ ⟨hcc.2.1, hcc.2.2⟩, ← e, ih]
        simp
        omega

/-- The headers of an enrolment request. -/
def postHeaders (cfg : Cfg) (n : Nat) (auth : Option (List Nat)) : List Hdr :=
  [⟨[85, 115, 101, 114, 45, 65, 103, 101, 110, 116], cfg.ua⟩, ⟨[67, 111, 110, 110, 101, 99, 116, 105, 111, 110], [99, 108, 111, 115, 101]⟩,
   ⟨[72, 111, 115, 116], cfg.server ++ 58 :: decimal cfg.port⟩, ⟨[65, 99, 99, 101, 112, 116], [42, 47, 42]⟩,
   ⟨[67, 111, 110, 116, 101, 110, 116, 45, 84, 121, 112, 101], [97, 112, 112, 108, 105, 99, 97, 116, 105, 111, 110, 47, 112, 107, 99, 115, 49, 48]⟩, ⟨[67, 111, 110, 116, 101, 110, 116, 45, 76, 101, 110, 103, 116, 104], decimal n⟩] ++
  (match auth with | none => [] | some v => [⟨[65, 117, 116, 104, 111, 114, 105, 122, 97, 116, 105, 111, 110], v⟩])

/-- The request text, as RFC 7230 has it. -/
def requestText (cfg : Cfg) (op : Op) (n : Nat) (auth : Option (List Nat)) : List Nat :=
  [80, 79, 83, 84] ++ 32 :: (path cfg op ++ 32 :: ([72, 84, 84, 80, 47, 49, 46, 49] ++ 13 :: 10 ::
    lines ((postHeaders cfg n auth).map (fun h => (h, 1))) [13, 10]))

def toAuth : Option (List Nat) → Auth
  | none => .none
  | some v => .value v

theorem buildPost_text (cfg : Cfg) (op : Op) (n : Nat) (auth : Option (List Nat))
    (hl : (requestText cfg op n auth).length ≤ 1026) :
    buildPost cfg op n (toAuth auth) ++ [13, 10] = requestText cfg op n auth ∧
    buildPost cfg op n (toAuth auth) ≠ [] := by
  have hp : postText cfg op n ++ [13, 10] = requestText cfg op n none := by
    simp [postText, requestText, postHeaders, common, lines, line]
  cases auth with
  | none =>
    have hpl : (postText cfg op n).length ≤ 1024 := by
      rw [← hp] at hl; simp at hl; omega
    unfold buildPost toAuth addAuth
    simp only
    rw [List.take_of_length_le (by unfold totalLen; omega), if_neg (by unfold hdrMax; omega)]
    exact ⟨hp, by simp [postText]⟩
  | some v =>
    have hv : postText cfg op n ++ ([65, 117, 116, 104, 111, 114, 105, 122, 97, 116, 105, 111, 110, 58, 32] ++ (v ++ [13, 10])) ++ [13, 10] =
        requestText cfg op n (some v) := by
      simp [postText, requestText, postHeaders, common, lines, line]
    have hpl : (postText cfg op n).length + v.length + 17 ≤ 1024 := by
      rw [← hv] at hl; simp at hl; omega
    unfold buildPost toAuth
    simp only
    rw [List.take_of_length_le (by unfold totalLen; omega), addAuth_value _ _ (by omega),
      if_neg (by unfold hdrMax; simp; omega)]
    exact ⟨hv, by simp [postText]⟩

theorem printable_postHeaders (cfg : Cfg) (n : Nat) (auth : Option (List Nat))
    (hua : HeaderText cfg.ua) (hs : HeaderText cfg.server) (hsne : cfg.server ≠ [])
    (ha : ∀ v, auth = some v → HeaderText v) :
    ∀ h ∈ postHeaders cfg n auth, WellFormed h ∧ Printable h := by
  have hd : ∀ n, ∀ c ∈ decimal n, 32 ≤ c ∧ c ≤ 126 := by
    intro n c hc; have := decimal_digits n c hc; omega
  have mk : ∀ (name v : List Nat), name ≠ [] → (∀ c ∈ name, 32 ≤ c ∧ c ≤ 126 ∧ c ≠ 58) →
      HeaderText v → WellFormed ⟨name, v⟩ ∧ Printable ⟨name, v⟩ := by
    intro name v h1 h2 h3
    refine ⟨wf_of h1 (fun c hc => ?_) (fun c hc => ?_) h3.start, ⟨fun c hc => ?_, h3.chars⟩⟩
    · have := h2 c hc; omega
    · have := h3.chars c hc; omega
    · have := h2 c hc; exact ⟨this.1, this.2.1⟩
  intro h hh
  unfold postHeaders at hh
  simp only [List.cons_append, List.nil_append, List.mem_cons] at hh
  rcases hh with rfl | rfl | rfl | rfl | rfl | rfl | hh
  · exact mk _ _ (by simp) (by decide) hua
  · exact mk _ _ (by simp) (by decide) ⟨by decide, by decide⟩
  · refine mk _ _ (by simp) (by decide) ⟨?_, ?_⟩
    · intro c hc
      rcases List.mem_append.1 hc with h | h
      · exact hs.chars c h
      · rcases List.mem_cons.1 h with rfl | h
        · decide
        · exact hd _ c h
    · cases hcs : cfg.server with
      | nil => exact absurd hcs hsne
      | cons c t => have := hs.start; rw [hcs] at this; simpa using this
  · exact mk _ _ (by simp) (by decide) ⟨by decide, by decide⟩
  · exact mk _ _ (by simp) (by decide) ⟨by decide, by decide⟩
  · exact mk _ _ (by simp) (by decide) ⟨hd _, decimal_head _⟩
  · cases auth with
    | none => cases hh
    | some v =>
      simp only [List.mem_cons, List.not_mem_nil, or_false] at hh
      subst hh
      exact mk _ _ (by simp) (by decide) (ha v rfl)

/-- C62: what the client sends is framed by the server as exactly this request followed by the
CSR, and the request is parsed into the method, path, version and headers that were meant. -/
theorem C62_server_reads_request (cfg : Cfg) (op : Op) (csr : List Nat) (auth : Option (List Nat))
    (hua : HeaderText cfg.ua) (hs : HeaderText cfg.server) (hsne : cfg.server ≠ [])
    (hseg : ∀ s, cfg.seg = some s → ∀ c ∈ s, 33 ≤ c ∧ c ≤ 126)
    (ha : ∀ v, auth = some v → HeaderText v)
    (hl : (requestText cfg op csr.length auth).length ≤ 1026) (hcsr : csr.length ≤ 4096) :
    ∃ hd, enrollRequest cfg op (toAuth auth) csr = .sent ((hd ++ (csr ++ [13, 10])).map some) ∧
      HttpConn.getRequestLen (hd ++ (csr ++ [13, 10])) = hd.length ∧
      parseRequest hd = some ⟨[80, 79, 83, 84], path cfg op, [49, 46, 49], postHeaders cfg csr.length auth⟩ ∧
      hd.length ≤ 1026 := by
  obtain ⟨h1, h2⟩ := buildPost_text cfg op csr.length auth hl
  have hall := printable_postHeaders cfg csr.length auth hua hs hsne ha
  have hpath : ∀ c ∈ path cfg op, 33 ≤ c ∧ c ≤ 126 := by
    intro c hc
    unfold path at hc
    rcases List.mem_append.1 hc with h | h
    · have q : ∀ c ∈ [47, 46, 119, 101, 108, 108, 45, 107, 110, 111, 119, 110, 47, 101, 115, 116], 33 ≤ c ∧ c ≤ 126 := by decide
      exact q c h
    · rcases List.mem_append.1 h with h | h
      · cases hcs : cfg.seg with
        | none => rw [hcs] at h; cases h
        | some s =>
          rw [hcs] at h
          rcases List.mem_cons.1 h with rfl | h
          · decide
          · exact hseg s hcs c h
      · have : ∀ c ∈ 47 :: uriName op, 33 ≤ c ∧ c ≤ 126 := by cases op <;> decide
        exact this c h
  refine ⟨requestText cfg op csr.length auth, ?_, ?_, ?_, hl⟩
  · unfold enrollRequest
    rw [C61_sent_intact_partial _ _ h2 hcsr (by
      have := congrArg List.length h1
      simp at this; omega), ← h1]
    simp
  · have e : requestText cfg op csr.length auth ++ (csr ++ [13, 10]) =
        ([80, 79, 83, 84] ++ 32 :: (path cfg op ++ 32 :: [72, 84, 84, 80, 47, 49, 46, 49])) ++ 13 :: 10 ::
          lines ((postHeaders cfg csr.length auth).map (fun h => (h, 1)))
            (13 :: 10 :: (csr ++ [13, 10])) := by
      unfold requestText
      have := ClientResp.lines_append ((postHeaders cfg csr.length auth).map (fun h => (h, 1)))
        [13, 10] (csr ++ [13, 10])
      simp only [List.cons_append, List.nil_append] at this
      rw [this]; simp
    have hw : ∀ p ∈ (postHeaders cfg csr.length auth).map (fun h => (h, 1)), WellFormed p.1 := by
      intro p hp
      obtain ⟨h, hh, rfl⟩ := List.mem_map.1 hp
      exact (hall h hh).1
    have hpr : ∀ p ∈ (postHeaders cfg csr.length auth).map (fun h => (h, 1)), Printable p.1 := by
      intro p hp
      obtain ⟨h, hh, rfl⟩ := List.mem_map.1 hp
      exact (hall h hh).2
    have hne : (postHeaders cfg csr.length auth).map (fun h => (h, 1)) ≠ [] := by
      simp [postHeaders]
    have r := reqLen_lines _ hw hpr hne (csr ++ [13, 10])
      (0 + (([80, 79, 83, 84] ++ 32 :: (path cfg op ++ 32 :: [72, 84, 84, 80, 47, 49, 46, 49])).length + 2))
    rw [e]
    unfold HttpConn.getRequestLen
    have hcons : ∃ t, lines ((postHeaders cfg csr.length auth).map (fun h => (h, 1)))
        (13 :: 10 :: (csr ++ [13, 10])) = 85 :: t := ⟨_, rfl⟩
    obtain ⟨t, ht⟩ := hcons
    rw [ht] at r ⊢
    rw [reqLen_line _ _ 85 t (by decide) 0, r]
    · unfold requestText; simp; omega
    · intro c hc
      simp only [List.mem_append, List.mem_cons] at hc
      rcases hc with hc | hc | hc | hc | hc
      · simp at hc; omega
      · omega
      · have := hpath c hc; omega
      · omega
      · simp at hc; omega
  · have hpm := HttpHdr.C46_message_round_trip [80, 79, 83, 84] (path cfg op) [72, 84, 84, 80, 47, 49, 46, 49]
      ((postHeaders cfg csr.length auth).map (fun h => (h, 1)))
      (by decide) (by decide) (by simp) (fun c hc => by have := hpath c hc; omega)
      (by simp [path]) (by decide) (by decide) (by
        intro p hp
        obtain ⟨h, hh, rfl⟩ := List.mem_map.1 hp
        exact (hall h hh).1)
    unfold parseRequest
    rw [show requestText cfg op csr.length auth = [80, 79, 83, 84] ++ 32 :: (path cfg op ++ 32 ::
      ([72, 84, 84, 80, 47, 49, 46, 49] ++ 13 :: 10 :: lines ((postHeaders cfg csr.length auth).map (fun h => (h, 1)))
        [13, 10])) from rfl, hpm]
    simp only
    rw [if_pos (by decide)]
    have hmap : ((postHeaders cfg csr.length auth).map (fun h => (h, 1))).map (·.1) =
        postHeaders cfg csr.length auth := by
      rw [List.map_map]; exact List.map_id _
    rw [hmap, List.take_of_length_le (by
      unfold postHeaders; cases auth <;> simp)]
    rfl

/-- C62: the headers the server looks up are found with the values that were meant. -/
theorem C62_headers_found (cfg : Cfg) (n : Nat) (auth : Option (List Nat)) :
    getHeader (postHeaders cfg n auth) [67, 111, 110, 116, 101, 110, 116, 45, 76, 101, 110, 103, 116, 104] = some (decimal n) ∧
    getHeader (postHeaders cfg n auth) [67, 111, 110, 116, 101, 110, 116, 45, 84, 121, 112, 101] = some [97, 112, 112, 108, 105, 99, 97, 116, 105, 111, 110, 47, 112, 107, 99, 115, 49, 48] ∧
    getHeader (postHeaders cfg n auth) [67, 111, 110, 110, 101, 99, 116, 105, 111, 110] = some [99, 108, 111, 115, 101] ∧
    getHeader (postHeaders cfg n auth) [65, 117, 116, 104, 111, 114, 105, 122, 97, 116, 105, 111, 110] = auth := by
  cases auth <;> simp [postHeaders, getHeader, HttpHdr.caseEq, HttpHdr.toLower]

/-- C62: without a path segment, the path leads to the operation that was meant. -/
theorem C62_operation (cfg : Cfg) (op : Op) (h : cfg.seg = none) (brski : Bool)
    (hb : EstUri.isBrski op = true → brski = true) :
    EstUri.dispatched brski (path cfg op) = some op := by
  have : path cfg op = path ⟨[], [], 0, none⟩ op := by simp [path, h]
  rw [this]
  cases brski
  · cases op <;> first | exact absurd (hb rfl) (by decide) | decide +kernel
  · cases op <;> decide +kernel

/-- C62 with C33: the credentials the client was given are the ones the server checks. -/
theorem C62_basic_credentials (odd) (cfg : Cfg) (n : Nat) (user pwd : List Nat)
    (hu : AuthHdr.Chars user) (hp : AuthHdr.Chars pwd)
    (hul : user.length ≤ 255) (hpl : pwd.length ≤ 255) (hcolon : 58 ∉ user) (hne : user ≠ []) :
    ∃ v, AuthHdr.basicValue user pwd = some v ∧
      AuthHdr.parseAuthHeader odd .basic (getHeader (postHeaders cfg n (some v)) [65, 117, 116, 104, 111, 114, 105, 122, 97, 116, 105, 111, 110]) =
        .good { mode := .basic, user := some user, pwd := some pwd } (some user) := by
  obtain ⟨v, h1, h2⟩ := AuthHdr.C33_basic_round_trip_partial odd user pwd hu hp hul hpl hcolon hne
  exact ⟨v, h1, by rw [(C62_headers_found cfg n (some v)).2.2.2]; exact h2⟩

/-- A small configuration and CSR. -/
example : ∃ hd, enrollRequest ⟨[69, 83, 84], [99, 97, 46, 101, 120, 97, 109, 112, 108, 101], 8085, some [108, 97, 98]⟩ .simpleEnroll .none [77, 73, 73, 61] =
      .sent ((hd ++ ([77, 73, 73, 61] ++ [13, 10])).map some) ∧
      HttpConn.getRequestLen (hd ++ ([77, 73, 73, 61] ++ [13, 10])) = hd.length ∧
      parseRequest hd = some ⟨[80, 79, 83, 84], [47, 46, 119, 101, 108, 108, 45, 107, 110, 111, 119, 110, 47, 101, 115, 116, 47, 108, 97, 98, 47, 115, 105, 109, 112, 108, 101, 101, 110, 114, 111, 108, 108], [49, 46, 49],
        postHeaders ⟨[69, 83, 84], [99, 97, 46, 101, 120, 97, 109, 112, 108, 101], 8085, some [108, 97, 98]⟩ 4 none⟩ ∧ hd.length ≤ 1026 :=
  C62_server_reads_request ⟨[69, 83, 84], [99, 97, 46, 101, 120, 97, 109, 112, 108, 101], 8085, some [108, 97, 98]⟩ .simpleEnroll [77, 73, 73, 61] none
    ⟨by decide, by decide⟩ ⟨by decide, by decide⟩ (by decide)
    (by intro s hs; injection hs with hs; subst hs; decide) (by intro v hv; cases hv)
    (by decide +kernel) (by decide)

end Verif.ClientReq
