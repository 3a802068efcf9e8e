import Verif.WipeModel
import Verif.Base64Props

/-!
# C120: secrets are overwritten before their memory is given back

Which buffers with a password, a token or a private key are overwritten before they are released, and
which are not.
-/
namespace Verif.Wipe
open Safe (Buf memset memcpy memzeroS memcpyS strcpyS strnlenS strnlen strncpy)

/-! ## The specification -/

/-- `n` bytes of zero. -/
abbrev zeros (n : Nat) : Buf := List.replicate n 0

/-- An object whose string was overwritten: everything up to its NUL is zero, the rest is as before. -/
def blank (b : Buf) : Buf := (b.takeWhile (· ≠ 0)).map (fun _ => 0) ++ b.dropWhile (· ≠ 0)

/-- A missing value, or an object with a string of at most `max` characters. -/
def Fits (max : Nat) (f : Option Buf) : Prop :=
  ∀ b, f = some b → 0 ∈ b ∧ (b.takeWhile (· ≠ 0)).length ≤ max

/-- All the values the application gave are within the limits of the library. -/
def Creds.Fit (c : Creds) : Prop :=
  Fits 255 c.user ∧ Fits 255 c.pwd ∧ Fits 272 c.uri ∧ Fits 64 c.cnonce ∧ Fits 10 c.qop ∧ Fits 9 c.nc ∧
  Fits 64 c.nonce ∧ Fits 64 c.response ∧ Fits 512 c.token

/-- The objects the application gave, in the order in which they are released. -/
def Creds.blocks (c : Creds) : List Buf :=
  [c.user, c.pwd, c.uri, c.cnonce, c.qop, c.nc, c.nonce, c.response, c.token].filterMap id

/-! ## Strings -/

theorem strnlen_mem (b : Buf) (max : Nat) (h : 0 ∈ b) :
    strnlen b max = some (min (b.takeWhile (· ≠ 0)).length max) := by
  induction b generalizing max with
  | nil => cases h
  | cons c b ih =>
    cases max with
    | zero => simp [strnlen]
    | succ m =>
      by_cases hc : c = 0
      · simp [strnlen, hc]
      · have h0 : 0 ∈ b := by
          rcases List.mem_cons.1 h with h | h
          · exact absurd h.symm hc
          · exact h
        simp [strnlen, hc, ih m h0]

theorem strnlen_le {b : Buf} {max n : Nat} (h : strnlen b max = some n) : n ≤ b.length ∧ n ≤ max := by
  induction b generalizing max n with
  | nil =>
    cases max with
    | zero => simp [strnlen] at h; subst h; simp
    | succ m => simp [strnlen] at h
  | cons c b ih =>
    cases max with
    | zero => simp [strnlen] at h; subst h; simp
    | succ m =>
      by_cases hc : c = 0
      · simp [strnlen, hc] at h; subst h; simp
      · simp only [strnlen, if_neg hc, Option.map_eq_some_iff] at h
        obtain ⟨k, hk, rfl⟩ := h
        have := ih hk
        simp only [List.length_cons]
        omega

theorem memset_zero {b r : Buf} {n : Nat} (h : memset b 0 n = some r) :
    n ≤ b.length ∧ r = zeros n ++ b.drop n := by
  unfold memset at h
  split at h
  · rename_i hn
    simp at h
    exact ⟨hn, h.symm⟩
  · cases h

theorem memset_ok (b : Buf) (n : Nat) (h : n ≤ b.length) : memset b 0 n = some (zeros n ++ b.drop n) := by
  simp [memset, h]

theorem memset_all (b : Buf) (n : Nat) (h : b.length = n) : memset b 0 n = some (zeros n) := by
  subst h; simp [memset]

theorem takeWhile_length_le (b : Buf) : (b.takeWhile (· ≠ 0)).length ≤ b.length :=
  (List.takeWhile_sublist _).length_le

theorem drop_takeWhile (b : Buf) : b.drop (b.takeWhile (· ≠ 0)).length = b.dropWhile (· ≠ 0) := by
  induction b with
  | nil => rfl
  | cons c b ih => by_cases hc : c = 0 <;> simp [hc] ; simpa using ih

theorem map_zero (l : List Nat) : l.map (fun _ => 0) = zeros l.length := by
  induction l with
  | nil => rfl
  | cons c l ih => simp [List.replicate_succ, ih]

theorem blank_eq (b : Buf) :
    blank b = zeros (b.takeWhile (· ≠ 0)).length ++ b.drop (b.takeWhile (· ≠ 0)).length := by
  rw [blank, map_zero, drop_takeWhile]

/-! ## Credentials from the application -/

theorem cleanseField_fits {max : Nat} {f : Option Buf} (h : Fits max f) :
    cleanseField max f = some (f.toList.map blank) := by
  cases f with
  | none => rfl
  | some b =>
    obtain ⟨h0, hl⟩ := h b rfl
    have hle := takeWhile_length_le b
    simp only [cleanseField, strnlenS, strnlen_mem b max h0, Option.bind_eq_bind, Option.bind_some,
      Nat.min_eq_left hl, memset_ok _ _ hle, Option.toList_some, List.map_cons, List.map_nil, blank_eq]

theorem filterMap_toList (l : List (Option Buf)) : l.filterMap id = l.flatMap (·.toList) := by
  induction l with
  | nil => rfl
  | cons a l ih => cases a <;> simp [ih]

/-- **C120**: the credentials an application has handed over are overwritten, each up to its end, before
their memory is released, if they are no longer than the library allows. -/
theorem C120_cleanse (c : Creds) (h : c.Fit) : cleanseCreds c = some (c.blocks.map blank) := by
  obtain ⟨h1, h2, h3, h4, h5, h6, h7, h8, h9⟩ := h
  simp only [cleanseCreds, cleanseField_fits h1, cleanseField_fits h2, cleanseField_fits h3,
    cleanseField_fits h4, cleanseField_fits h5, cleanseField_fits h6, cleanseField_fits h7,
    cleanseField_fits h8, cleanseField_fits h9, Option.bind_eq_bind, Option.bind_some, Creds.blocks,
    filterMap_toList]
  simp only [List.flatMap_cons, List.flatMap_nil, List.append_nil, List.map_append, List.append_assoc]

/-- A password and a token, each with its NUL. -/
def exCreds : Creds := { user := some [106, 111, 0], pwd := some [112, 119, 33, 0, 7], token := some [0] }

theorem fits_of (max : Nat) (f : Option Buf)
    (h : f.all (fun b => b.contains 0 && decide ((b.takeWhile (· ≠ 0)).length ≤ max)) = true) : Fits max f := by
  intro b hb
  subst hb
  simpa using h

example : exCreds.Fit ∧ cleanseCreds exCreds = some [[0, 0, 0], [0, 0, 0, 0, 7], [0]] := by
  refine ⟨⟨?_, ?_, ?_, ?_, ?_, ?_, ?_, ?_, ?_⟩, by decide⟩ <;> exact fits_of _ _ (by decide)

/-- **C120**: of a string that is longer than the limit, everything behind the limit is still there when the
memory is released. -/
theorem C120_cleanse_tail (t r : List Nat) (max : Nat) (h0 : 0 ∉ t) (hl : max < t.length) :
    cleanseField max (some (t ++ 0 :: r)) = some [zeros max ++ t.drop max ++ 0 :: r] := by
  have hm : (0 : Nat) ∈ t ++ 0 :: r := by simp
  have ht : ((t ++ 0 :: r).takeWhile (· ≠ 0)).length = t.length := by
    rw [List.takeWhile_append_of_pos (by intro x hx; simp; intro hx0; exact h0 (hx0 ▸ hx))]
    simp
  simp only [cleanseField, strnlenS, strnlen_mem _ max hm, ht, Option.bind_eq_bind, Option.bind_some,
    Nat.min_eq_right (Nat.le_of_lt hl)]
  rw [memset_ok _ _ (by simp; omega)]
  simp [List.drop_append_of_le_length (Nat.le_of_lt hl)]

example : (0 : Nat) ∉ List.replicate 300 65 ∧ 255 < (List.replicate 300 65 : List Nat).length := by decide +kernel

/-- **C120**: it is not so for every password: one that the library refuses because it is too long is released with
its last characters. -/
theorem C120_cleanse_false :
    ∃ c : Creds, ∃ p, c.pwd = some (p ++ [0]) ∧ 0 ∉ p ∧ cleanseCreds c = some [zeros 255 ++ p.drop 255 ++ [0]] ∧
      p.drop 255 ≠ [] := by
  refine ⟨{ pwd := some (List.replicate 260 65 ++ [0]) }, List.replicate 260 65, rfl, by decide +kernel, ?_,
    by decide +kernel⟩
  decide +kernel

/-! ## The authentication header -/

theorem strncpy_length {n : Nat} {d s r : Buf} (h : strncpy n d s = some r) : r.length = d.length := by
  induction n generalizing d s r with
  | zero => simp [strncpy] at h; subst h; rfl
  | succ n ih =>
    cases d with
    | nil => simp [strncpy] at h
    | cons x d =>
      cases s with
      | nil => simp [strncpy] at h
      | cons c s =>
        simp only [strncpy, Option.map_eq_some_iff] at h
        obtain ⟨q, hq, rfl⟩ := h
        simp [ih hq]

theorem strcpyS_length {d s : Buf} {n : Nat} {x : Safe.Err × Option Buf} {r : Buf}
    (h : strcpyS (some d) n (some s) = some x) (hr : x.2 = some r) : r.length = d.length := by
  unfold strcpyS at h
  simp only at h
  split at h
  · simp at h; subst h; simp at hr; rw [hr]
  · simp only [Option.map_eq_some_iff] at h
    obtain ⟨q, hq, rfl⟩ := h
    simp at hr
    subst hr
    exact strncpy_length hq

theorem memset_length {b r : Buf} {c n : Nat} (h : memset b c n = some r) : r.length = b.length := by
  unfold memset at h
  split at h
  · simp at h; subst h; simp; omega
  · cases h

theorem takeInto_length {d r : Buf} {f : Option Buf} (h : takeInto d f = some r) : r.length = d.length := by
  cases f with
  | none => exact memset_length h
  | some s =>
    simp only [takeInto, Option.bind_eq_bind, Option.bind_eq_some_iff] at h
    obtain ⟨n, _, h⟩ := h
    split at h
    · exact memset_length h
    · obtain ⟨x, hx, hr⟩ := Option.bind_eq_some_iff.1 h
      exact strcpyS_length hx hr

theorem retrieve_some {c : Creds} {u p : Buf} {r : Buf × Buf × List Buf} (h : retrieve c u p = some r) :
    r.1.length = u.length ∧ r.2.1.length = p.length ∧ cleanseCreds c = some r.2.2 := by
  simp only [retrieve, Option.bind_eq_bind, Option.bind_eq_some_iff] at h
  obtain ⟨a, ha, b, hb, f, hf, h⟩ := h
  simp at h
  subst h
  exact ⟨takeInto_length ha, takeInto_length hb, hf⟩

/-- **C120**: whatever the mode, every value the callback of the application gave for a header is overwritten
before it is released; for Digest the response follows, overwritten as well. -/
theorem C120_callback_values (a : Auth) (v : Option (List Nat)) (tr : Trail) (hc : a.creds.Fit)
    (hm : a.mode = .token ∨ a.asks = true ∧ (a.mode = .basic ∨ a.mode = .digest ∧ a.rand = true))
    (hd : ∀ u p d, a.digest u p = some d → d.length = 33)
    (h : addAuthHdr a = some (v, tr)) :
    ∃ more, tr.freed = a.creds.blocks.map blank ++ more ∧ ∀ b ∈ more, b = zeros 33 := by
  rcases hm with hm | ⟨hk, hm | ⟨hm, hr⟩⟩
  · simp only [addAuthHdr, hm, Option.bind_eq_bind, Option.bind_eq_some_iff, C120_cleanse _ hc] at h
    obtain ⟨t, _, r, _, w, _, f, hf, h⟩ := h
    simp at h hf
    subst hf
    rw [← h.2]
    exact ⟨[], by simp⟩
  · simp only [addAuthHdr, hm, hk, if_true, Option.bind_eq_bind, Option.bind_eq_some_iff] at h
    obtain ⟨r, hr, b, _, h⟩ := h
    have := (retrieve_some hr).2.2
    rw [C120_cleanse _ hc] at this
    simp at h this
    rw [← h.2]
    exact ⟨[], by simp [this]⟩
  · simp only [addAuthHdr, hm, hr, digestCreds, hk, if_true, Option.bind_eq_bind, Bool.not_true, Bool.false_eq_true,
      if_false, Option.bind_eq_some_iff] at h
    obtain ⟨r, hr, h⟩ := h
    have := (retrieve_some hr).2.2
    rw [C120_cleanse _ hc] at this
    simp at this
    cases hdg : a.digest r.1 r.2.1 with
    | none =>
      simp only [hdg, Option.bind_eq_some_iff] at h
      obtain ⟨x, _, y, _, h⟩ := h
      simp at h
      rw [← h.2]
      exact ⟨[], by simp [this]⟩
    | some d =>
      simp only [hdg, Option.bind_eq_some_iff] at h
      obtain ⟨x, _, d', hd', y, _, z, _, h⟩ := h
      simp at h
      rw [← h.2]
      refine ⟨[d'], by simp [this], ?_⟩
      intro b hb
      simp at hb
      subst hb
      rw [memset_all _ _ (hd _ _ _ hdg)] at hd'
      simp at hd'
      exact hd'.symm

/-- A client that asks its application. -/
def exAuth (m : Mode) : Auth :=
  { mode := m, userid := zeros 256, password := zeros 256, creds := exCreds,
    digest := fun _ _ => some (List.replicate 32 97 ++ [0]) }

example : (exAuth .digest).asks = true ∧ ((addAuthHdr (exAuth .digest)).map fun x => x.2.freed) =
    some [[0, 0, 0], [0, 0, 0, 0, 7], [0], zeros 33] ∧
    ((addAuthHdr (exAuth .basic)).map fun x => x.2.freed) = some [[0, 0, 0], [0, 0, 0, 0, 7], [0]] := by
  decide +kernel

/-- **C120**: in Digest mode the arrays for the user name and the password are zero when the function returns. -/
theorem C120_digest_frame (a : Auth) (v : Option (List Nat)) (tr : Trail) (hm : a.mode = .digest)
    (hu : a.rawUser.length = 256) (hp : a.rawPwd.length = 256) (h : addAuthHdr a = some (v, tr)) :
    ∀ b ∈ tr.frame, b = zeros 256 := by
  simp only [addAuthHdr, hm] at h
  cases hr : a.rand with
  | false => simp [hr] at h; rw [← h.2]; simp
  | true =>
    simp only [hr, Bool.not_true, Bool.false_eq_true, if_false, Option.bind_eq_bind] at h
    obtain ⟨r, hr, h⟩ := Option.bind_eq_some_iff.1 h
    have hl : r.1.length = 256 ∧ r.2.1.length = 256 := by
      unfold digestCreds at hr
      cases ha : a.asks with
      | true =>
        simp only [ha, if_true] at hr
        have := retrieve_some hr
        exact ⟨this.1.trans List.length_replicate, this.2.1.trans List.length_replicate⟩
      | false =>
        simp only [ha, Bool.false_eq_true, if_false, Option.bind_eq_bind, Option.bind_eq_some_iff] at hr
        obtain ⟨x, hx, y, hy, u, hu', p, hp', hr⟩ := hr
        simp at hr
        subst hr
        exact ⟨(strcpyS_length hx hu').trans hu, (strcpyS_length hy hp').trans hp⟩
    cases hdg : a.digest r.1 r.2.1 with
    | none =>
      simp only [hdg, memset_all _ _ hl.1, memset_all _ _ hl.2, Option.bind_some] at h
      simp at h
      rw [← h.2]
      simp
    | some d =>
      simp only [hdg, Option.bind_eq_some_iff, memset_all _ _ hl.1, memset_all _ _ hl.2] at h
      obtain ⟨x, _, d', _, y, hy, z, hz, h⟩ := h
      simp at h hy hz
      subst hy hz
      rw [← h.2]
      simp

example : ((addAuthHdr (exAuth .digest)).map fun x => x.2.frame) = some [zeros 256, zeros 256] := by decide +kernel

/-- A client with a user name and a password in its context. -/
def exConf (c : Nat) : Auth := { mode := .basic, userid := 117 :: zeros 255, password := c :: zeros 255 }

/-- **C120**: in Basic mode it is not so: what the function leaves on the stack depends on the password. -/
theorem C120_basic_frame_false :
    ¬ ∀ c c' : Nat, ((addAuthHdr (exConf c)).map fun x => x.2.frame) =
      ((addAuthHdr (exConf c')).map fun x => x.2.frame) := by
  intro h
  have := h 65 66
  revert this
  decide +kernel

theorem printTo_zeros (n : Nat) (t : List Nat) (h : t.length ≤ n) :
    printTo (zeros (n + 1)) (n + 1) t = some (t ++ zeros (n + 1 - t.length)) := by
  have ht : t.take n = t := List.take_of_length_le h
  have ht' : (t ++ [0]).take (t.length + 1) = t ++ [0] := List.take_of_length_le (by simp)
  simp only [printTo, Nat.add_sub_cancel, ht, memcpy]
  rw [if_pos (by simp; omega), ht', List.drop_replicate]
  have h2 : n + 1 - t.length = (n + 1 - (t.length + 1)) + 1 := by omega
  rw [h2, zeros, List.replicate_succ]
  simp

/-- **C120**: what is left in Basic mode are the user name and the password themselves, and their encoding. -/
theorem C120_basic_frame (a : Auth) (v : Option (List Nat)) (tr : Trail) (u p : List Nat)
    (hm : a.mode = .basic) (hk : a.asks = false) (hu : text a.userid = some u) (hp : text a.password = some p)
    (hl : u.length + p.length ≤ 510) (h : addAuthHdr a = some (v, tr)) :
    ∃ e, tr.frame = [u ++ 58 :: p ++ zeros (511 - u.length - p.length), e] := by
  simp only [addAuthHdr, hm, hk, Bool.false_eq_true, if_false, Option.bind_eq_bind, basicTail, hu, hp,
    Option.bind_some, Option.bind_eq_some_iff] at h
  obtain ⟨b, ⟨both, hb, n, _, e, _, w, _, h1⟩, h⟩ := h
  simp only [Option.some.injEq] at h1 h
  subst h1
  have h2 : tr = { frame := [both, e.2] } := (congrArg Prod.snd h).symm
  rw [h2]
  refine ⟨e.2, ?_⟩
  rw [printTo_zeros 511 _ (by simp; omega)] at hb
  simp only [Option.some.injEq] at hb
  have h3 : 511 + 1 - (u ++ 58 :: p).length = 511 - u.length - p.length := by
    simp only [List.length_append, List.length_cons]
    omega
  rw [← hb, h3]

example : (exConf 65).asks = false ∧ text (exConf 65).userid = some [117] ∧ text (exConf 65).password = some [65] ∧
    ((addAuthHdr (exConf 65)).map fun x => x.2.frame.head?) = some (some ([117, 58, 65] ++ zeros 509)) := by
  decide +kernel

/-- **C120**: in Token mode what the function leaves on the stack depends on the token. -/
theorem C120_token_frame_false :
    ¬ ∀ c c' : Nat,
      ((addAuthHdr { mode := .token, userid := zeros 256, password := zeros 256,
                     creds := { token := some [c, 0] } }).map fun x => x.2.frame) =
      ((addAuthHdr { mode := .token, userid := zeros 256, password := zeros 256,
                     creds := { token := some [c', 0] } }).map fun x => x.2.frame) := by
  intro h
  have := h 65 66
  revert this
  decide +kernel

/-! ## The request -/

/-- **C120**: the text of an enrolment, with the line that carries the credentials, is overwritten up to its end
before its buffer is released. -/
theorem C120_enroll_request (http : Buf) (h0 : 0 ∈ http) (hl : (http.takeWhile (· ≠ 0)).length ≤ 5125) :
    dropEnrollRequest http = some [blank http] := by
  simp only [dropEnrollRequest, strnlenS, strnlen_mem _ _ h0, Option.bind_eq_bind, Option.bind_some,
    Nat.min_eq_left hl]
  split
  · rename_i h
    rw [blank_eq, h]
    rfl
  · rw [memset_ok _ _ (takeWhile_length_le http), blank_eq]
    rfl

example : (0 : Nat) ∈ [80, 79, 83, 84, 0, 9] ∧ dropEnrollRequest ([80, 79, 83, 84, 0, 9] : Buf) = some [[0, 0, 0, 0, 0, 9]] := by
  decide

/-- **C120**: the requests for CSR attributes and those of the bootstrap protocol, which carry the same line, are
released as they are. -/
theorem C120_other_requests_false :
    ¬ ∀ http : Buf, (∀ b ∈ dropCsrattrsRequest http, b = blank http) ∧ ∀ b ∈ dropBrskiRequest http, b = blank http := by
  intro h
  have := (h [65, 0]).1 [65, 0] (by simp [dropCsrattrsRequest])
  revert this
  decide

/-! ## The key a server made for the client -/

theorem memcpy_some {d s r : Buf} {n : Nat} (h : memcpy d s n = some r) :
    n ≤ d.length ∧ n ≤ s.length ∧ r = s.take n ++ d.drop n := by
  unfold memcpy at h
  split at h
  · rename_i hn
    simp at h
    exact ⟨hn.1, hn.2, h.symm⟩
  · cases h

theorem memcpy_ok (d s : Buf) (n : Nat) (hd : n ≤ d.length) (hs : n ≤ s.length) :
    memcpy d s n = some (s.take n ++ d.drop n) := by
  simp [memcpy, hd, hs]

/-- **C120**: the application gets the bytes of the key and the block in the context is overwritten before it is
released. -/
theorem C120_copy_key (k : List Nat) (r : Buf) :
    copyKey (some (k ++ r)) k.length = some (some k, { freed := [zeros k.length ++ r] }) := by
  simp only [copyKey]
  rw [memcpy_ok _ _ _ (by simp) (by simp), memset_ok _ _ (by simp)]
  simp

example : copyKey (some [77, 73, 73, 0]) 3 = some (some [77, 73, 73], { freed := [[0, 0, 0, 0]] }) := by decide

theorem decode_ret {odd : Bool → List Nat → List Nat} {t : List Nat} {n m : Nat} {w : List Nat}
    (h : Base64.decode odd t n = .ret m w) : m = 0 ∨ m = w.length := by
  simp only [Base64.decode] at h
  repeat' split at h
  all_goals first
    | (simp only [Base64.DecRes.ret.injEq] at h; exact Or.inl h.1.symm)
    | (simp only [Base64.DecRes.ret.injEq] at h; right; rw [← h.1, ← h.2])
    | cases h

theorem text_cut (t r : List Nat) : text (t ++ 0 :: r) = some (t.takeWhile (· ≠ 0)) := by
  have h : (t ++ 0 :: r).contains 0 = true := by simp
  simp only [text, h, if_true, Option.some.injEq]
  induction t with
  | nil => simp
  | cons c t ih =>
    by_cases hc : c = 0
    · simp [hc]
    · have h' : (t ++ 0 :: r).contains 0 = true := by simp
      simp [hc] at ih ⊢
      exact ih

/-- **C120**: a client that was given a key has released two blocks that begin with the whole key, and has lost
the pointer to a third one with its decoded form, before the application asks for the key. -/
theorem C120_client_key_left (w : EnrollWorld) (ctxKey : Option Buf) (ctxLen n : Nat) (k : Option Buf) (tr : Trail)
    (blk : Buf) (hb : w.resp.key = some blk) (h : enrollReq w ctxKey ctxLen = some (true, k, n, tr)) :
    ∃ key nk dec, blk.take n = key ∧ key.length = n ∧ nk.take n = key ∧
      k = some (key ++ 0 :: w.rawCtx.drop (n + 1)) ∧
      tr.freed = [blk] ++ ctxKey.toList ++ [nk] ∧ tr.lost = [dec] ∧
      ∃ m wr, Base64.decode w.odd (key.takeWhile (· ≠ 0)) n = .ret m wr ∧ wr ≠ [] ∧ dec = wr ++ w.rawDec.drop wr.length := by
  simp only [enrollReq, Option.bind_eq_bind] at h
  obtain ⟨⟨ok, nk, n', fr⟩, h1, h⟩ := Option.bind_eq_some_iff.1 h
  simp only at h
  cases ok with
  | false => simp at h
  | true =>
  cases hac : w.allocCert with
  | false => simp [hac] at h
  | true =>
  cases hak : w.allocKey with
  | false => simp [hac, hak] at h
  | true =>
  simp only [hac, hak, Bool.not_true, Bool.false_eq_true, if_false, Option.bind_eq_some_iff] at h
  obtain ⟨kk, hkk, ⟨vok, vt⟩, hv, h⟩ := h
  simp only [Option.some.injEq, Prod.mk.injEq] at h
  obtain ⟨rfl, rfl, rfl, rfl⟩ := h
  simp only [takeResponse, Option.bind_eq_bind] at h1
  split at h1
  case isFalse => simp at h1
  rename_i hc
  obtain ⟨c, hcp, h1⟩ := Option.bind_eq_some_iff.1 h1
  obtain ⟨nk', hnk, h1⟩ := Option.bind_eq_some_iff.1 h1
  simp only [Option.some.injEq, Prod.mk.injEq, true_and] at h1
  obtain ⟨rfl, rfl, rfl⟩ := h1
  simp only [memcpyS, hb, if_neg (Nat.not_lt.2 hc.2.2.2.2), Option.map_eq_some_iff] at hcp
  obtain ⟨d, hd, rfl⟩ := hcp
  simp only [Option.some.injEq] at hnk
  subst hnk
  obtain ⟨_, hl, rfl⟩ := memcpy_some hd
  have hlen : (blk.take w.resp.keyLen).length = w.resp.keyLen := by simp [hl]
  have ht : (blk.take w.resp.keyLen ++ w.rawNew.drop w.resp.keyLen).take w.resp.keyLen = blk.take w.resp.keyLen := by
    rw [List.take_append_of_le_length (Nat.le_of_eq hlen.symm), List.take_of_length_le (Nat.le_of_eq hlen)]
  rw [ht] at hkk
  obtain ⟨_, _, hkk⟩ := memcpy_some hkk
  rw [List.take_of_length_le (by simp [hlen])] at hkk
  have hkk' : kk = blk.take w.resp.keyLen ++ 0 :: w.rawCtx.drop (w.resp.keyLen + 1) := by simp [hkk]
  subst hkk'
  simp only [verifyKey] at hv
  cases hco : w.certOk with
  | false => simp [hco] at hv
  | true =>
  simp only [hco, Bool.not_true, Bool.false_eq_true, if_false, getPkey, text_cut, Option.bind_eq_bind,
    Option.bind_some, Option.bind_eq_some_iff] at hv
  obtain ⟨g, hg, hv⟩ := hv
  cases hdec : Base64.decode w.odd ((blk.take w.resp.keyLen).takeWhile (· ≠ 0)) w.resp.keyLen with
  | ub => simp only [hdec] at hg; cases hg
  | ret m wr =>
  simp only [hdec, Option.bind_eq_some_iff] at hg
  obtain ⟨d, hd, hg⟩ := hg
  simp only [Option.some.injEq, Prod.mk.injEq, Bool.and_eq_true] at hv
  split at hg
  · simp at hg; subst hg; simp at hv
  rename_i hm
  split at hg
  case isFalse => simp at hg; subst hg; simp at hv
  simp only [Option.some.injEq] at hg
  subst hg
  obtain ⟨_, hv⟩ := hv
  subst hv
  refine ⟨_, _, d, rfl, hlen, ht, rfl, by simp [Trail.andThen, hb], by simp [Trail.andThen], m, wr, hdec, ?_, ?_⟩
  · rintro rfl
    rcases decode_ret hdec with h | h
    · exact hm h
    · exact hm h
  · obtain ⟨_, _, rfl⟩ := memcpy_some hd
    simp

/-- A client with a server that gives it a key of three bytes, "AQID". -/
def exEnroll : EnrollWorld :=
  { resp := { ok := true, key := some [65, 81, 73, 68], keyLen := 4, cert := some [67], certLen := 1 },
    rawNew := zeros 8192, rawCtx := zeros 5, rawDec := zeros 4 }

set_option maxRecDepth 10000 in
/-- **C120**: so the key is not overwritten in every block that held it: the client releases it as it came. -/
theorem C120_client_key_false :
    ∃ w k n tr, enrollReq w none 0 = some (true, some k, n, tr) ∧ [65, 81, 73, 68] ∈ tr.freed ∧
      [1, 2, 3, 0] ∈ tr.lost := by
  cases h : enrollReq exEnroll none 0 with
  | none =>
    have : (enrollReq exEnroll none 0).isSome = true := by decide +kernel
    rw [h] at this
    cases this
  | some x =>
    have h1 : ((enrollReq exEnroll none 0).map fun x => (x.1, x.2.1.isSome, x.2.2.2.freed.head?, x.2.2.2.lost)) =
      some (true, true, some [65, 81, 73, 68], [[1, 2, 3, 0]]) := by decide +kernel
    rw [h] at h1
    obtain ⟨ok, k, n, tr⟩ := x
    simp only [Option.map_some, Option.some.injEq, Prod.mk.injEq] at h1
    obtain ⟨rfl, h2, h3, h4⟩ := h1
    obtain ⟨k, rfl⟩ := Option.isSome_iff_exists.1 h2
    refine ⟨exEnroll, k, n, tr, h, ?_, by rw [h4]; simp⟩
    cases hf : tr.freed with
    | nil => simp [hf] at h3
    | cons a l => simp [hf] at h3; subst h3; simp

/-- **C120**: from the answer of the server to the application: the application gets the bytes that came, and the
block of the context is all zero, up to what was there before, when it is released. -/
theorem C120_key_handed_over (w : EnrollWorld) (ctxKey : Option Buf) (ctxLen n : Nat) (k : Option Buf) (tr : Trail)
    (blk : Buf) (hb : w.resp.key = some blk) (h : enrollReq w ctxKey ctxLen = some (true, k, n, tr)) :
    copyKey k n = some (some (blk.take n), { freed := [zeros (n + 1) ++ w.rawCtx.drop (n + 1)] }) := by
  obtain ⟨key, nk, dec, hk, hl, _, rfl, _⟩ := C120_client_key_left w ctxKey ctxLen n k tr blk hb h
  subst hk
  have := C120_copy_key (blk.take n) (0 :: w.rawCtx.drop (n + 1))
  rw [hl] at this
  rw [this]
  have hz : zeros (n + 1) = zeros n ++ [0] := List.replicate_succ'
  rw [hz]
  simp

example : ((enrollReq exEnroll none 0).bind fun x => copyKey x.2.1 x.2.2.1) =
    some (some [65, 81, 73, 68], { freed := [zeros 5] }) := by decide +kernel

/-- **C120**: when a context is destroyed, the password in it is not overwritten, and a key that nobody asked for is
neither overwritten nor released. -/
theorem C120_destroy_false :
    ¬ ∀ u p k, (∀ b ∈ (destroy u p k).freed, ∀ x ∈ b, x = 0) ∧ (destroy u p k).lost = [] := by
  intro h
  have := (h [] [112] (some [1])).2
  simp [destroy] at this

/-! ## The server and the credentials of a request -/

theorem cstr_no_zero (b : List Nat) : 0 ∉ AuthHdr.cstr b := by
  induction b with
  | nil => simp [AuthHdr.cstr]
  | cons c b ih =>
    unfold AuthHdr.cstr at *
    by_cases hc : c = 0
    · simp [hc]
    · simp [hc] at ih ⊢
      exact ⟨fun h => hc h.symm, ih⟩

theorem destroyField_dup (max : Nat) (t : List Nat) (h0 : 0 ∉ t) (hl : t.length ≤ max) :
    destroyField max (some (dup t)) = some [zeros (t.length + 1)] := by
  have hm : (0 : Nat) ∈ dup t := by simp [dup]
  have ht : ((dup t).takeWhile (· ≠ 0)).length = t.length := by
    rw [dup, List.takeWhile_append_of_pos (by intro x hx; simp; intro hx0; exact h0 (hx0 ▸ hx))]
    simp
  simp only [destroyField, strnlenS, strnlen_mem _ max hm, ht, Option.bind_eq_bind, Option.bind_some,
    Nat.min_eq_left hl]
  have hz : zeros (t.length + 1) = zeros t.length ++ [0] := List.replicate_succ'
  split
  · rename_i h
    have : t = [] := List.length_eq_zero_iff.1 h
    subst this
    rfl
  · rw [memset_ok _ _ (by simp [dup]), hz]
    simp [dup]

theorem not_mem_take {l : List Nat} {n : Nat} (h : 0 ∉ l) : 0 ∉ l.take n := fun hm => h (List.mem_of_mem_take hm)

/-- The password a parsed Basic header can have. -/
theorem splitBasic_pwd (b : List Nat) (n : Nat) (p : List Nat) (h0 : 0 ∉ b)
    (h : (AuthHdr.splitBasic b n).pwd = some p) : 0 ∉ p ∧ p.length ≤ 255 := by
  unfold AuthHdr.splitBasic at h
  split at h
  · simp at h
  · split at h
    · split at h
      · simp only [Option.some.injEq] at h
        subst h
        exact ⟨not_mem_take fun hm => h0 (List.mem_of_mem_tail hm), by simp [AuthHdr.maxUidPwd]; omega⟩
      · simp at h
    · simp only [Option.some.injEq] at h
      subst h
      refine ⟨not_mem_take fun hm => h0 ?_, by simp [AuthHdr.maxUidPwd]; omega⟩
      exact (List.dropWhile_sublist _).subset (List.mem_of_mem_tail hm)

/-- **C120**: whatever credentials a client sends for Basic or as a token, the blocks in which the server keeps the
password and the token are zero from end to end when they are released. -/
theorem C120_server_credentials (odd : Bool → List Nat → List Nat) (h : List Nat) (ah : AuthHdr.Ah)
    (hp : AuthHdr.parseBasic odd h = some ah ∨ AuthHdr.parseToken odd h = some ah) :
    ∃ bl others, destroyAh ah = some (bl, others) ∧ ∀ b ∈ bl, ∀ x ∈ b, x = 0 := by
  have key : (∀ p, ah.pwd = some p → 0 ∉ p ∧ p.length ≤ 255) ∧ ∀ t, ah.token = some t → 0 ∉ t ∧ t.length ≤ 512 := by
    rcases hp with hp | hp
    · unfold AuthHdr.parseBasic at hp
      split at hp
      · simp at hp; subst hp; simp
      · split at hp
        · simp at hp; subst hp; simp
        · rename_i n b _ _
          simp only [Option.some.injEq] at hp
          subst hp
          refine ⟨fun p hpw => splitBasic_pwd _ _ _ (cstr_no_zero b) hpw, fun t ht => ?_⟩
          unfold AuthHdr.splitBasic at ht
          repeat' split at ht
          all_goals simp at ht
    · unfold AuthHdr.parseToken at hp
      simp only at hp
      split at hp
      · simp at hp; subst hp; simp
      · split at hp
        · simp at hp; subst hp; simp
        · split at hp
          · simp at hp; subst hp; simp
          · rename_i n b _ _ _
            simp only [Option.some.injEq] at hp
            subst hp
            refine ⟨fun p hpw => by simp at hpw, fun t ht => ?_⟩
            simp only [Option.some.injEq] at ht
            subst ht
            exact ⟨not_mem_take (cstr_no_zero b), by simp; omega⟩
  have f1 : ∃ bl, destroyField 255 (ah.pwd.map dup) = some bl ∧ ∀ b ∈ bl, ∀ x ∈ b, x = 0 := by
    cases hpw : ah.pwd with
    | none => exact ⟨[], rfl, by simp⟩
    | some p =>
      have := key.1 p hpw
      refine ⟨_, destroyField_dup 255 p this.1 this.2, ?_⟩
      intro b hb x hx
      simp at hb
      subst hb
      exact List.eq_of_mem_replicate hx
  have f2 : ∃ bl, destroyField 512 (ah.token.map dup) = some bl ∧ ∀ b ∈ bl, ∀ x ∈ b, x = 0 := by
    cases htk : ah.token with
    | none => exact ⟨[], rfl, by simp⟩
    | some t =>
      have := key.2 t htk
      refine ⟨_, destroyField_dup 512 t this.1 this.2, ?_⟩
      intro b hb x hx
      simp at hb
      subst hb
      exact List.eq_of_mem_replicate hx
  obtain ⟨b1, e1, z1⟩ := f1
  obtain ⟨b2, e2, z2⟩ := f2
  refine ⟨b1 ++ b2, _, by simp only [destroyAh, e1, e2, Option.bind_eq_bind, Option.bind_some]; rfl, ?_⟩
  intro b hb
  rcases List.mem_append.1 hb with hb | hb
  · exact z1 b hb
  · exact z2 b hb

/-- "Basic am86cHch", that is "jo:pw!". -/
def exBasic : List Nat := [66, 97, 115, 105, 99, 32, 97, 109, 56, 54, 99, 72, 99, 104]

example : ((AuthHdr.parseBasic (fun _ _ => []) exBasic).bind fun ah => destroyAh ah) =
    some ([[0, 0, 0, 0]], [[106, 111, 0]]) := by decide +kernel

/-- **C120**: the array with the decoded credentials is zero when the parser for Basic returns, if they could be
decoded. -/
theorem C120_basic_array (odd : Bool → List Nat → List Nat) (h raw b : Buf) (n : Nat) (w : List Nat)
    (hr : raw.length = 512) (hd : Base64.decode odd ((h.drop 6).dropWhile HttpHdr.isSpace) 512 = .ret n w)
    (hn : n ≠ 0 ∧ n < 512) (hb : basicFrame odd h raw = some b) : b = zeros 512 := by
  simp only [basicFrame, hd, Option.bind_eq_bind, Option.bind_eq_some_iff] at hb
  obtain ⟨both, h1, hb⟩ := hb
  rw [if_neg (by omega)] at hb
  obtain ⟨_, _, rfl⟩ := memcpy_some h1
  rw [memset_all _ _ (by simp; omega)] at hb
  simp only [Option.some.injEq] at hb
  exact hb.symm

example : basicFrame (fun _ _ => []) exBasic (List.replicate 512 7) = some (zeros 512) := by decide +kernel

/-- **C120**: the array with the decoded token is not: it still has the token when the parser returns. -/
theorem C120_token_array_false :
    ¬ ∀ odd h b, tokenFrame odd h = some b → b = zeros 1024 := by
  intro h
  cases hb : tokenFrame (fun _ _ => []) ([66, 101, 97, 114, 101, 114, 32, 99, 72, 99, 104]) with
  | none =>
    have : (tokenFrame (fun _ _ => []) ([66, 101, 97, 114, 101, 114, 32, 99, 72, 99, 104])).isSome = true := by decide +kernel
    rw [hb] at this
    cases this
  | some b =>
    have h1 : ((tokenFrame (fun _ _ => []) ([66, 101, 97, 114, 101, 114, 32, 99, 72, 99, 104])).map (·.take 3)) = some [112, 119, 33] := by decide +kernel
    rw [hb, h _ _ _ hb] at h1
    revert h1
    decide +kernel

/-! ## The server and the key it makes -/

/-- The block with the text of a key, as it is released: zero for as long as the text was. -/
def spentText (w : KeygenWorld) : Buf :=
  zeros ((Base64.bioWrite true w.der).length + 1) ++ w.rawText.drop ((Base64.bioWrite true w.der).length + 1)

theorem encode_room (src dst : List Nat) (hs : src ≠ []) (hl : (Base64.bioWrite true src).length < dst.length)
    (hm : src.length ≤ dst.length * 3 / 4 + 1) :
    Base64.encode true src dst = some ((Base64.bioWrite true src).length,
      Base64.bioWrite true src ++ 0 :: dst.drop ((Base64.bioWrite true src).length + 1)) := by
  simp only [Base64.encode, if_neg (Nat.not_lt.2 hm), if_neg hs, if_pos hl, if_pos (Nat.le_of_lt hl)]
  congr 2
  rw [List.set_append_right _ _ (Nat.le_refl _), Nat.sub_self]
  congr 1
  cases hd : dst.drop (Base64.bioWrite true src).length with
  | nil => simp at hd; omega
  | cons a l =>
    simp only [List.set_cons_zero]
    congr 1
    have := congrArg List.tail hd
    simpa using this.symm

theorem bioWrite_length (d : List Nat) :
    (Base64.bioWrite true d).length = 4 * ((d.length + 2) / 3) + (4 * ((d.length + 2) / 3) + 63) / 64 := by
  simp only [Base64.bioWrite, if_true, Base64.wrap_length, Base64.enc_length]

theorem keygen_blocks (w : KeygenWorld) (tr : Trail) (ho : w.other = none) (hd : w.der ≠ [])
    (hr : (Base64.bioWrite true w.der).length < w.rawText.length)
    (hm : w.der.length ≤ w.rawText.length * 3 / 4 + 1) (h : keygenHttp w = some tr) :
    tr.lost = [] ∧ tr.frame = [] ∧ ∀ b ∈ tr.freed, b = zeros w.der.length ∨ b = spentText w := by
  have he := encode_room w.der w.rawText hd hr hm
  have hz := memset_all w.der _ rfl
  have hs : memset (Base64.bioWrite true w.der ++ 0 :: w.rawText.drop ((Base64.bioWrite true w.der).length + 1)) 0
      (Base64.bioWrite true w.der).length = some (spentText w) := by
    rw [memset_ok _ _ (by simp), spentText]
    have : zeros ((Base64.bioWrite true w.der).length + 1) = zeros (Base64.bioWrite true w.der).length ++ [0] :=
      List.replicate_succ'
    rw [this]
    simp
  unfold keygenHttp handleKeygen at h
  cases hre : w.reach with
  | noKey => simp [hre] at h; subst h; simp
  | noRoom => simp [hre, hz] at h; subst h; simp
  | stopped =>
    simp only [hre, he, hz, hs, Option.bind_eq_bind, Option.bind_some, Option.some.injEq] at h
    subst h
    simp
  | called =>
    simp only [hre, he, hz, ho, Option.getD_none, Option.bind_eq_bind, Option.bind_some] at h
    by_cases hw : (w.enrolled && w.written) = true
    · simp only [if_pos hw, Option.bind_some, hs, Option.some.injEq] at h
      subst h
      simp [Trail.andThen]
    · simp only [if_neg hw, hs, Option.bind_some, Option.some.injEq] at h
      subst h
      simp

/-- **C120**: whatever happens to a request for a key over HTTP, the bytes of the key and its text are overwritten
from end to end before their memory is released, and no block with the key is lost. -/
theorem C120_server_key (w : KeygenWorld) (tr : Trail) (ho : w.other = none) (hd : 7 ≤ w.der.length)
    (hr : w.rawText.length = w.der.length * 2) (h : keygenHttp w = some tr) :
    tr.lost = [] ∧ tr.frame = [] ∧ ∀ b ∈ tr.freed, b = zeros w.der.length ∨ b = spentText w := by
  refine keygen_blocks w tr ho ?_ ?_ ?_ h
  · intro h0; simp [h0] at hd
  · rw [bioWrite_length, hr]; omega
  · rw [hr]; omega

/-- **C120**: so nothing that a request for a key leaves in memory tells which key of its length it was. -/
theorem C120_server_key_hidden (w : KeygenWorld) (der : Buf) (ho : w.other = none) (hd : 7 ≤ w.der.length)
    (hr : w.rawText.length = w.der.length * 2) (hl : der.length = w.der.length) :
    keygenHttp { w with der := der } = keygenHttp w := by
  have hlen : (Base64.bioWrite true der).length = (Base64.bioWrite true w.der).length := by
    rw [bioWrite_length, bioWrite_length, hl]
  have hlt : (Base64.bioWrite true w.der).length < w.rawText.length := by rw [bioWrite_length, hr]; omega
  have hm : w.der.length ≤ w.rawText.length * 3 / 4 + 1 := by rw [hr]; omega
  have hne : w.der ≠ [] := by intro h0; simp [h0] at hd
  have hne' : der ≠ [] := by intro h0; simp [h0] at hl; omega
  have e1 := encode_room w.der w.rawText hne hlt hm
  have e2 := encode_room der w.rawText hne' (hlen ▸ hlt) (hl ▸ hm)
  have z1 := memset_all w.der _ rfl
  have z2 := memset_all der w.der.length hl
  have s1 := memset_ok (Base64.bioWrite true w.der ++ 0 :: w.rawText.drop ((Base64.bioWrite true w.der).length + 1))
    (Base64.bioWrite true w.der).length (by simp)
  have s2 := memset_ok (Base64.bioWrite true der ++ 0 :: w.rawText.drop ((Base64.bioWrite true w.der).length + 1))
    (Base64.bioWrite true w.der).length (by simp [hlen])
  rw [List.drop_left' rfl] at s1
  rw [List.drop_left' hlen] at s2
  rw [hlen] at e2
  unfold keygenHttp handleKeygen
  cases w.reach with
  | noKey => rfl
  | noRoom => simp only [hl, z1, z2, Option.bind_eq_bind, Option.bind_some]
  | stopped => simp only [hl, e1, e2, z1, z2, s1, s2, Option.bind_eq_bind, Option.bind_some]
  | called =>
    simp only [hl, e1, e2, z1, z2, ho, Option.getD_none, Option.bind_eq_bind, Option.bind_some]
    by_cases hw : (w.enrolled && w.written) = true
    · simp only [if_pos hw, Option.bind_some, s1, s2]
    · simp only [if_neg hw, Option.bind_some, s1, s2]

example : (7 : Nat) ≤ [48, 6, 2, 1, 0, 2, 1, 9].length ∧
    keygenHttp { reach := .called, der := [48, 6, 2, 1, 0, 2, 1, 9], rawText := List.replicate 16 9 } =
    keygenHttp { reach := .called, der := [48, 6, 2, 1, 0, 2, 1, 8], rawText := List.replicate 16 9 } := by
  decide +kernel

/-- A key of eight bytes. -/
def exKeygen (r : Reach) (e : Bool) : KeygenWorld :=
  { reach := r, der := [48, 6, 2, 1, 0, 2, 1, 9], rawText := List.replicate 16 9, enrolled := e }

example : keygenHttp (exKeygen .called true) = some { freed := [zeros 8, zeros 14 ++ [9, 9]] } ∧
    keygenHttp (exKeygen .called false) = some { freed := [zeros 14 ++ [9, 9], zeros 8] } ∧
    keygenHttp (exKeygen .stopped false) = some { freed := [zeros 14 ++ [9, 9], zeros 8] } := by decide +kernel

/-- **C120**: a callback that puts another block in place of the text gets that block overwritten for the length it
gave. -/
theorem C120_server_other_block (w : KeygenWorld) (tr : Trail) (k r : List Nat)
    (ho : w.other = some (k ++ r, k.length)) (hc : w.reach = .called) (h : keygenHttp w = some tr) :
    tr.lost = [] ∧ zeros k.length ++ r ∈ tr.freed := by
  have hk : memset (k ++ r) 0 k.length = some (zeros k.length ++ r) := by
    rw [memset_ok _ _ (by simp)]; simp
  have hz := memset_all w.der _ rfl
  unfold keygenHttp handleKeygen at h
  simp only [hc, Option.bind_eq_bind, hz, ho, Option.getD_some, Option.bind_some, hk, Option.bind_assoc,
    Option.bind_eq_some_iff] at h
  obtain ⟨e, _, x, hx, h⟩ := h
  by_cases hw : (w.enrolled && w.written) = true
  · simp only [if_pos hw, Option.some.injEq] at hx
    subst hx
    simp only [hk, Option.bind_some, Option.some.injEq] at h
    subst h
    simp [Trail.andThen]
  · simp only [if_neg hw, Option.some.injEq] at hx
    subst hx
    simp only [Option.some.injEq] at h
    subst h
    simp

example : keygenHttp { exKeygen .called true with other := some ([1, 2, 3, 4], 3) } =
    some { freed := [zeros 8, [0, 0, 0, 4]] } := by decide +kernel

/-! ## CoAP -/

/-- **C120**: over CoAP, once the text of the key is in a block of its own, every block that held the key or the
answer is overwritten before it is released, if the text can be decoded. -/
theorem C120_coap_key (w : CoapWorld) (k r : List Nat) (n : Nat) (wr : List Nat) (tr : Trail) (nd : Buf)
    (hs : 2 ≤ w.stop) (hd : w.dec (k.takeWhile (· ≠ 0)) = .ret n wr) (hn : n ≠ 0) (hw : wr.length = n)
    (h : coapTail w (k ++ r) k.length = some (tr, nd)) :
    tr.lost = [] ∧ ∃ more, tr.freed = [zeros k.length ++ r, zeros (k.length + 1) ++ w.rawText.drop (k.length + 1)] ++ more ∧
      ∀ b ∈ more, b = zeros n ++ w.rawDer.drop n ∨ b = zeros (w.cbor wr).length := by
  have hz : zeros (k.length + 1) = zeros k.length ++ [0] := List.replicate_succ'
  unfold coapTail at h
  rw [if_neg (by omega)] at h
  simp only [Option.bind_eq_bind, Option.bind_eq_some_iff] at h
  obtain ⟨kt, hkt, k0, hk0, kt0, hkt0, h⟩ := h
  obtain ⟨_, _, hkt⟩ := memcpy_some hkt
  have hkt : kt = k ++ 0 :: w.rawText.drop (k.length + 1) := by
    rw [hkt, List.take_left' rfl, List.take_of_length_le (by simp)]
    simp
  subst hkt
  have hk0 : k0 = zeros k.length ++ r := by
    rw [(memset_zero hk0).2]; simp
  subst hk0
  have hkt0 : kt0 = zeros (k.length + 1) ++ w.rawText.drop (k.length + 1) := by
    rw [(memset_zero hkt0).2, hz]; simp
  subst hkt0
  by_cases h2 : w.stop = 2
  · simp only [if_pos h2, Option.some.injEq, Prod.mk.injEq] at h
    rw [← h.1]
    exact ⟨rfl, [], by simp⟩
  · rw [if_neg h2] at h
    simp only [text_cut, Option.bind_eq_some_iff, Option.some.injEq] at h
    obtain ⟨t, rfl, h⟩ := h
    simp only [hd, Option.bind_eq_some_iff] at h
    obtain ⟨d, hd', d0, hd0, h⟩ := h
    obtain ⟨_, _, hd'⟩ := memcpy_some hd'
    have hd' : d = wr ++ w.rawDer.drop n := by rw [hd', hw]; simp [← hw]
    subst hd'
    have hd0 : d0 = zeros n ++ w.rawDer.drop n := by
      rw [(memset_zero hd0).2, List.drop_left' hw]
    subst hd0
    by_cases h3 : w.stop = 3
    · rw [if_pos (Or.inr h3)] at h
      simp only [Option.some.injEq, Prod.mk.injEq] at h
      rw [← h.1]
      exact ⟨rfl, [zeros n ++ w.rawDer.drop n], by simp, by simp⟩
    · rw [if_neg (by omega)] at h
      simp only [List.take_left' hw, memset_all _ _ rfl, Option.bind_some] at h
      by_cases h4 : w.stop = 4
      · simp only [if_pos h4, Option.some.injEq, Prod.mk.injEq] at h
        rw [← h.1]
        exact ⟨rfl, [zeros n ++ w.rawDer.drop n, zeros (w.cbor wr).length], by simp, by simp⟩
      · simp only [if_neg h4, Option.bind_eq_some_iff] at h
        obtain ⟨nd', _, h⟩ := h
        simp only [Option.some.injEq, Prod.mk.injEq] at h
        rw [← h.1]
        exact ⟨rfl, [zeros n ++ w.rawDer.drop n, zeros (w.cbor wr).length], by simp, by simp⟩

/-- The text "AQID" of a key of three bytes, in a node with room for eight bytes. -/
def exCoap (stop : Nat) (d : Base64.DecRes) : CoapWorld :=
  { stop := stop, rawText := List.replicate 5 9, rawDer := List.replicate 4 9, dec := fun _ => d,
    cbor := fun k => 132 :: k, node := zeros 8 }

example : coapTail (exCoap 5 (.ret 3 [1, 2, 3])) [65, 81, 73, 68, 7] 4 =
    some ({ freed := [[0, 0, 0, 0, 7], zeros 5, [0, 0, 0, 9], zeros 4] }, [132, 1, 2, 3, 0, 0, 0, 0]) := by decide

/-- **C120**: if one of the first two blocks cannot be had, the block with the text of the key is lost as it is. -/
theorem C120_coap_lost_false :
    ¬ ∀ w key len tr nd, coapTail w key len = some (tr, nd) → tr.lost = [] := by
  intro h
  have := h (exCoap 1 .ub) [65, 81, 73, 68] 4 _ _ rfl
  simp at this

/-- **C120**: if the text cannot be decoded to its end, the bytes that were decoded are released as they are. -/
theorem C120_coap_partial_false :
    ∃ w key len tr nd, coapTail w key len = some (tr, nd) ∧ [1, 2, 3, 9] ∈ tr.freed :=
  ⟨exCoap 5 (.ret 0 [1, 2, 3]), [65, 81, 73, 68], 4, { freed := [zeros 4, zeros 5, [1, 2, 3, 9]] }, zeros 8,
    by decide, by decide⟩

/-- **C120**: and the key stays in the node of the client after the last block was sent. -/
theorem C120_coap_node_false :
    ∃ w key len tr nd, coapTail w key len = some (tr, nd) ∧ (w.cbor [1, 2, 3]) <+: nd ∧ [1, 2, 3] <:+ w.cbor [1, 2, 3] :=
  ⟨exCoap 5 (.ret 3 [1, 2, 3]), [65, 81, 73, 68], 4, { freed := [zeros 4, zeros 5, [0, 0, 0, 9], zeros 4] },
    [132, 1, 2, 3, 0, 0, 0, 0], by decide, by decide, by decide⟩

/-! ## The proxy -/

/-- **C120**: the proxy overwrites the key before it releases its block, if its answer could be written; without a
key or a certificate the whole block is overwritten. -/
theorem C120_proxy_key (k r : List Nat) (cert written : Bool) (tr : Trail) (hl : (k ++ r).length = 8192)
    (hw : cert = false ∨ written = true) (h : proxyKeygen (k ++ r) k.length cert written = some tr) :
    tr.lost = [] ∧ tr.freed = [if cert = true ∧ k ≠ [] then zeros k.length ++ r else zeros 8192] := by
  have hz := memset_all (k ++ r) 8192 hl
  have hk : memset (k ++ r) 0 k.length = some (zeros k.length ++ r) := by
    rw [memset_ok _ _ (by simp)]; simp
  unfold proxyKeygen at h
  cases cert with
  | false =>
    simp only [Bool.false_and, Bool.false_eq_true, if_false, hz, Option.bind_eq_bind, Option.bind_some,
      Option.some.injEq] at h
    rw [← h]
    simp
  | true =>
    have hw : written = true := by simpa using hw
    subst hw
    by_cases hk0 : k = []
    · subst hk0
      simp only [List.nil_append, List.length_nil, Nat.lt_irrefl, decide_false, Bool.and_false,
        Bool.false_eq_true, if_false] at h hz
      simp only [hz, Option.bind_eq_bind, Option.bind_some, Option.some.injEq] at h
      rw [← h]
      simp
    · have hp : 0 < k.length := List.length_pos_iff.2 hk0
      simp only [hp, decide_true, Bool.and_true, if_true, hk, Option.bind_eq_bind, Option.bind_some,
        Option.some.injEq] at h
      rw [← h]
      simp [hk0]

example : proxyKeygen ([65, 81, 73, 68] ++ zeros 8188) 4 true true = some { freed := [zeros 4 ++ zeros 8188] } := by
  have := memset_ok ([65, 81, 73, 68] ++ zeros 8188) 4 (by simp)
  simp only [proxyKeygen, this]
  rfl

/-- **C120**: if the answer cannot be written, the block with the key is lost as it is. -/
theorem C120_proxy_key_false :
    ¬ ∀ key len cert written tr, proxyKeygen key len cert written = some tr → tr.lost = [] := by
  intro h
  have := h [65, 81, 73, 68] 4 true false _ rfl
  simp at this

end Verif.Wipe
