import Verif.SrvAuthModel
import Verif.AuthHdrProps
import Verif.AuthProps

/-!
# Facts about the callbacks of the sample server
-/
namespace Verif.SrvAuth
open Verif.AuthHdr (Ah Parsed cstr parseAuthHeader Hash16)
open Verif.ClientResp (Mode)

/-! ## Options -/

/-- The last option that says something. -/
def last {α : Type} (f : Opt → Option α) (os : List Opt) : Option α := os.reverse.findSome? f

/-- The argument of `--token`. -/
def tokenArg : Opt → Option (List Nat)
  | .token t => some t
  | _ => none

/-- The argument of `--cert_auth_ah_pwd`. -/
def pwdArg : Opt → Option (List Nat)
  | .ecaPwd p => some p
  | _ => none

/-- The argument of `-r`. -/
def realmArg : Opt → Option (List Nat)
  | .realm r => some r
  | _ => none

/-- The realm is not too long. -/
def fits : Opt → Bool
  | .realm r => decide (r.length ≤ 32)
  | _ => true

theorem last_cons {α : Type} (f : Opt → Option α) (o : Opt) (os : List Opt) :
    last f (o :: os) = (last f os).or (f o) := by
  unfold last
  rw [List.reverse_cons, List.findSome?_append]
  congr 1
  cases h : f o <;> simp [h]

/-- The variables after a list of options. -/
def after (g : Glob) (os : List Opt) : Glob :=
  { digest := g.digest || decide (Opt.digest ∈ os)
    basic := g.basic || decide (Opt.basic ∈ os)
    tokenOn := g.tokenOn || (last tokenArg os).isSome
    token := ((last tokenArg os).map (·.take 512)).getD g.token
    disable := g.disable || decide (Opt.disable ∈ os)
    optional := g.optional || decide (Opt.optional ∈ os)
    realm := (last realmArg os).getD g.realm
    eca := g.eca || decide (Opt.eca ∈ os)
    pwdSet := g.pwdSet || (last pwdArg os).isSome
    pwd := ((last pwdArg os).map (·.take 256)).getD g.pwd
    check := g.check || decide (Opt.ecaCheck ∈ os)
    pop := g.pop || decide (Opt.pop ∈ os) }

theorem or_getD {α : Type} (x y : Option α) (d : α) : (x.or y).getD d = x.getD (y.getD d) := by
  cases x <;> rfl

theorem or_map {α β : Type} (f : α → β) (x y : Option α) : (x.or y).map f = (x.map f).or (y.map f) := by
  cases x <;> rfl

theorem after_cons (g g' : Glob) (o : Opt) (os : List Opt) (h : opt g o = some g') :
    after g (o :: os) = after g' os := by
  unfold after
  simp only [last_cons, or_map, or_getD, Option.isSome_or, List.mem_cons]
  cases o <;> simp only [opt] at h
  case realm r =>
    split at h
    · cases h
    · cases h
      simp [tokenArg, pwdArg, realmArg]
  all_goals
    cases h
    simp [tokenArg, pwdArg, realmArg, Bool.or_comm]

theorem opts_eq (os : List Opt) : ∀ g, opts g os = if os.all fits then some (after g os) else none := by
  induction os with
  | nil => intro g; simp [opts, after, last]
  | cons o os ih =>
    intro g
    cases h : opt g o with
    | none =>
      have : fits o = false := by
        cases o <;> simp [opt] at h
        simp [fits]; omega
      simp [opts, h, this]
    | some g' =>
      have hf : fits o = true := by
        cases o <;> simp [opt] at h <;> simp [fits]
        omega
      rw [after_cons g g' o os h]
      simp [opts, h, hf, ih]

/-- The configuration of libest after `main`. -/
def made (g : Glob) : Setter.Srv :=
  { Setter.Srv.init with
    pop := g.pop
    required := if g.optional then 0 else 1
    authMode := if g.tokenOn then 3 else if g.basic then 1 else if g.digest then 2 else 1
    eca := g.eca
    ecaNid := if g.eca then 13 else 0
    ecaPwd := if g.eca then Setter.strcpyS Setter.zeros 256 (ecaPass g) else Setter.zeros
    ecaCheck := if g.eca && g.check then 1 else 0 }

theorem goOn_calls (lib : Setter.Lib) (g : Glob) :
    goOn lib Setter.Srv.init (calls g) =
      if (g.digest && lib.fips) || (g.eca && decide (255 < (ecaPass g).length)) then none
      else some (made g) := by
  by_cases hl : 255 < (ecaPass g).length <;>
  cases hd : g.digest <;> cases hf : lib.fips <;> cases hb : g.basic <;> cases ht : g.tokenOn <;>
    cases ho : g.optional <;> cases he : g.eca <;> cases hc : g.check <;> cases hp : g.pop <;>
    simp [calls, goOn, Setter.step, Setter.setAuthMode, Setter.enableEca, hd, hf, hb, ht, ho, he, hc,
      hp, hl, made, Setter.Srv.init]

theorem start_eq (lib : Setter.Lib) (os : List Opt) :
    start lib os =
      if os.all fits = true ∧ ((after {} os).eca = true ∨ (after {} os).pwdSet = false) ∧
        ((after {} os).digest && lib.fips) = false ∧
        ((after {} os).eca && decide (255 < (ecaPass (after {} os)).length)) = false
      then some (after {} os, made (after {} os)) else none := by
  unfold start
  rw [opts_eq]
  by_cases h : os.all fits
  · rw [if_pos h]
    simp only [goOn_calls]
    cases he : (after {} os).eca <;> cases hp : (after {} os).pwdSet <;>
      cases hd : (after {} os).digest <;> cases hf : lib.fips <;> simp [h] <;>
      (by_cases hl : 255 < (ecaPass (after {} os)).length <;> simp [hl])
  · rw [if_neg h]
    simp [h]

theorem started {lib : Setter.Lib} {os : List Opt} {g : Glob} {s : Setter.Srv}
    (h : start lib os = some (g, s)) : g = after {} os ∧ s = made g := by
  rw [start_eq] at h
  split at h
  · injection h with h
    injection h with h1 h2
    exact ⟨h1.symm, by rw [← h2, ← h1]⟩
  · cases h

/-! ## Headers -/

theorem judge_good {ah ah' : Ah} {uid} (h : AuthHdr.judge ah' = .good ah uid) :
    ah = ah' ∧ (ah.mode = .digest → ah.uri.isSome ∧ ah.nonce.isSome ∧ ah.nc.isSome ∧ ah.cnonce.isSome) ∧
      (ah.mode ≠ .token → ah.user.isSome) := by
  unfold AuthHdr.judge at h
  split at h
  · cases h
  · rename_i hd
    have hd' : ah'.mode = .digest → ah'.uri.isSome ∧ ah'.nonce.isSome ∧ ah'.nc.isSome ∧ ah'.cnonce.isSome := by
      intro hm
      cases h1 : ah'.uri <;> cases h2 : ah'.nonce <;> cases h3 : ah'.nc <;> cases h4 : ah'.cnonce <;>
        simp_all
    split at h
    · rename_i ht
      injection h with h1 _
      subst h1
      exact ⟨rfl, hd', fun hn => absurd ht hn⟩
    · split at h
      · cases h
      · rename_i u hu
        injection h with h1 _
        subst h1
        exact ⟨rfl, hd', fun _ => by rw [hu]; rfl⟩

theorem starts_six {h : List Nat} : AuthHdr.startsWith [66, 97, 115, 105, 99, 32] h = true →
    AuthHdr.startsWith [68, 105, 103, 101, 115, 116, 32] h = false := by
  unfold AuthHdr.startsWith
  intro hb
  cases h with
  | nil => simp [List.isPrefixOf] at hb
  | cons c t =>
    simp [List.isPrefixOf, HttpHdr.toLower] at hb ⊢
    intro hc
    exact absurd (hb.1.trans hc.symm) (by decide)

theorem starts_seven {h : List Nat} : AuthHdr.startsWith [66, 101, 97, 114, 101, 114, 32] h = true →
    AuthHdr.startsWith [68, 105, 103, 101, 115, 116, 32] h = false ∧ AuthHdr.startsWith [66, 97, 115, 105, 99, 32] h = false := by
  unfold AuthHdr.startsWith
  intro hb
  cases h with
  | nil => simp [List.isPrefixOf] at hb
  | cons c t =>
    cases t with
    | nil => simp [List.isPrefixOf] at hb
    | cons d t =>
      simp [List.isPrefixOf, HttpHdr.toLower] at hb ⊢
      obtain ⟨h1, h2, _⟩ := hb
      refine ⟨fun hc => ?_, fun _ hd => ?_⟩
      · exact absurd (h1.trans hc.symm) (by decide)
      · exact absurd (h2.trans hd.symm) (by decide)

/-- A good header in Basic mode. -/
theorem good_basic (odd) (h : List Nat) (ah : Ah) (uid) :
    parseAuthHeader odd .basic (some h) = .good ah uid ↔
      AuthHdr.startsWith [66, 97, 115, 105, 99, 32] h = true ∧
      ∃ n b, Base64.decode odd ((h.drop 6).dropWhile HttpHdr.isSpace) 512 = .ret n b ∧
        n ≠ 0 ∧ n < 512 ∧ AuthHdr.judge (AuthHdr.splitBasic (cstr b) n) = .good ah uid := by
  constructor
  · intro hg
    unfold parseAuthHeader at hg
    simp only [reduceCtorEq, if_false, if_true] at hg
    split at hg
    · cases hg
    · split at hg
      · rename_i _ hs
        refine ⟨hs, ?_⟩
        unfold AuthHdr.parseBasic at hg
        split at hg
        · simp [AuthHdr.judge?, AuthHdr.judge] at hg
        · rename_i n b hd
          split at hg
          · simp [AuthHdr.judge?, AuthHdr.judge] at hg
          · rename_i hn
            exact ⟨n, b, hd, by omega, by omega, hg⟩
      · split at hg <;> cases hg
  · rintro ⟨hs, n, b, hd, hn0, hn, hj⟩
    unfold parseAuthHeader
    simp only [reduceCtorEq, if_false, if_true, starts_six hs, hs, Bool.false_eq_true]
    unfold AuthHdr.parseBasic
    simp only [hd]
    rw [if_neg (by omega)]
    exact hj

/-- A good header in Token mode. -/
theorem good_token (odd) (h : List Nat) (ah : Ah) (uid) :
    parseAuthHeader odd .token (some h) = .good ah uid ↔
      AuthHdr.startsWith [66, 101, 97, 114, 101, 114, 32] h = true ∧ uid = none ∧
      ∃ n b, Base64.decode odd ((h.drop 6).dropWhile HttpHdr.isSpace) 1024 = .ret n b ∧
        n ≠ 0 ∧ n < 1024 ∧ ah = { mode := .token, token := some ((cstr b).take 512) } := by
  constructor
  · intro hg
    unfold parseAuthHeader at hg
    simp only [reduceCtorEq, if_false, if_true] at hg
    split at hg
    · cases hg
    · split at hg
      · cases hg
      · split at hg
        · rename_i _ _ hs
          refine ⟨hs, ?_⟩
          unfold AuthHdr.parseToken at hg
          simp only at hg
          split at hg
          · simp [AuthHdr.judge?, AuthHdr.judge] at hg
          · rename_i n b hd
            split at hg
            · simp [AuthHdr.judge?, AuthHdr.judge] at hg
            · rename_i hn
              split at hg
              · simp [AuthHdr.judge?, AuthHdr.judge] at hg
              · simp only [AuthHdr.judge?, AuthHdr.judge] at hg
                simp at hg
                exact ⟨hg.2.symm, n, b, hd, by omega, by omega, hg.1.symm⟩
        · cases hg
  · rintro ⟨hs, rfl, n, b, hd, hn0, hn, rfl⟩
    obtain ⟨h1, h2⟩ := starts_seven hs
    unfold parseAuthHeader
    simp only [reduceCtorEq, if_false, if_true, h1, h2, hs, Bool.false_eq_true]
    unfold AuthHdr.parseToken
    simp only [hd]
    rw [if_neg (by omega), if_neg ?_]
    · simp [AuthHdr.judge?, AuthHdr.judge]
    · intro he
      rw [he] at hd
      simp [Base64.decode] at hd

/-- A good header in Digest mode. -/
theorem good_digest (odd) (h : List Nat) (ah : Ah) (uid) :
    parseAuthHeader odd .digest (some h) = .good ah uid ↔
      AuthHdr.startsWith [68, 105, 103, 101, 115, 116, 32] h = true ∧ (h.drop 7).length < 384 ∧
      AuthHdr.judge (AuthHdr.digestLoop 384 (h.drop 7) { mode := .digest }) = .good ah uid := by
  unfold parseAuthHeader AuthHdr.parseDigest AuthHdr.maxAuthHdr
  simp only [reduceCtorEq, if_false, if_true]
  constructor
  · intro hg
    split at hg
    · rename_i hs
      split at hg
      · cases hg
      · exact ⟨hs, by omega, hg⟩
    · split at hg
      · cases hg
      · split at hg <;> cases hg
  · rintro ⟨hs, hl, hj⟩
    rw [if_pos hs, if_neg (by omega)]
    exact hj

/-- What the fields of a Digest header are like: no NUL, and not longer than the copies. -/
structure Fields (ah : Ah) : Prop where
  mode : ah.mode = .digest
  pwd : ah.pwd = none
  token : ah.token = none
  user : ∀ v, ah.user = some v → 0 ∉ v ∧ v.length ≤ 255
  uri : ∀ v, ah.uri = some v → 0 ∉ v ∧ v.length ≤ 255
  nonce : ∀ v, ah.nonce = some v → 0 ∉ v ∧ v.length ≤ 64
  nc : ∀ v, ah.nc = some v → 0 ∉ v ∧ v.length ≤ 9
  cnonce : ∀ v, ah.cnonce = some v → 0 ∉ v ∧ v.length ≤ 64
  qop : ∀ v, ah.qop = some v → 0 ∉ v ∧ v.length ≤ 10
  response : ∀ v, ah.response = some v → 0 ∉ v ∧ v.length ≤ 64

theorem take_ok (v : List Nat) (k : Nat) (h : 0 ∉ v) : 0 ∉ v.take k ∧ (v.take k).length ≤ k :=
  ⟨fun h0 => h (List.mem_of_mem_take h0), by simp; omega⟩

theorem setField_fields (n v : List Nat) (ah : Ah) (hv : 0 ∉ v) (h : Fields ah) :
    Fields (AuthHdr.setField n v ah) := by
  unfold AuthHdr.setField
  repeat' split
  all_goals first | exact h | skip
  · exact { h with user := fun w hw => by cases hw; exact take_ok v _ hv }
  · exact { h with cnonce := fun w hw => by cases hw; exact take_ok v _ hv }
  · exact { h with response := fun w hw => by cases hw; exact take_ok v _ hv }
  · exact { h with uri := fun w hw => by cases hw; exact take_ok v _ hv }
  · exact { h with qop := fun w hw => by cases hw; exact take_ok v _ hv }
  · exact { h with nc := fun w hw => by cases hw; exact take_ok v _ hv }
  · exact { h with nonce := fun w hw => by cases hw; exact take_ok v _ hv }

theorem wordOf_mem (d t : List Nat) (c : Nat) (h : c ∈ HttpHdr.wordOf d t) : c ∈ t :=
  (List.takeWhile_sublist _).subset h

theorem skipWord_mem (d w t : List Nat) (c : Nat) :
    (c ∈ (HttpHdr.skipWord d w t).1 → c ∈ t) ∧ (c ∈ (HttpHdr.skipWord d w t).2 → c ∈ t) := by
  unfold HttpHdr.skipWord
  simp only
  split
  · exact ⟨wordOf_mem d t c, by simp⟩
  · rename_i x rest heq
    refine ⟨wordOf_mem d t c, fun h => ?_⟩
    have h1 : c ∈ rest := (List.dropWhile_sublist _).subset h
    exact List.mem_of_mem_drop (by rw [heq]; exact List.mem_cons_of_mem _ h1)

theorem quotedTail_mem (c : Nat) : ∀ k acc t,
    (c ∈ (AuthHdr.quotedTail k acc t).1 → c ∈ acc ∨ c ∈ t) ∧
    (c ∈ (AuthHdr.quotedTail k acc t).2 → c ∈ acc ∨ c ∈ t) := by
  intro k
  induction k with
  | zero => intro acc t; exact ⟨.inl, .inr⟩
  | succ k ih =>
    intro acc t
    cases t with
    | nil =>
      simp only [AuthHdr.quotedTail]
      refine ⟨fun h => .inl ?_, by simp⟩
      split at h
      · exact (List.dropLast_sublist _).subset h
      · exact h
    | cons d t =>
      simp only [AuthHdr.quotedTail]
      split
      · obtain ⟨h1, h2⟩ := ih (acc.dropLast ++ d :: t.takeWhile (· ≠ 34))
          (t.drop (t.takeWhile (· ≠ 34)).length)
        have key : c ∈ acc.dropLast ++ d :: t.takeWhile (· ≠ 34) ∨
            c ∈ t.drop (t.takeWhile (· ≠ 34)).length → c ∈ acc ∨ c ∈ d :: t := by
          rintro (h | h)
          · rw [List.mem_append] at h
            rcases h with h | h
            · exact .inl ((List.dropLast_sublist _).subset h)
            · rw [List.mem_cons] at h
              rcases h with h | h
              · exact .inr (by simp [h])
              · exact .inr (List.mem_cons_of_mem _ ((List.takeWhile_sublist _).subset h))
          · exact .inr (List.mem_cons_of_mem _ (List.mem_of_mem_drop h))
        exact ⟨fun h => key (h1 h), fun h => key (h2 h)⟩
      · exact ⟨.inl, fun h => .inr (List.mem_cons_of_mem _ ((List.dropWhile_sublist _).subset h))⟩

theorem skipQuoted_mem (t : List Nat) (c : Nat) :
    (c ∈ (AuthHdr.skipQuoted t).1 → c ∈ t) ∧ (c ∈ (AuthHdr.skipQuoted t).2 → c ∈ t) := by
  unfold AuthHdr.skipQuoted
  obtain ⟨h1, h2⟩ := quotedTail_mem c (t.length + 1) (t.takeWhile (· ≠ 34))
    (t.drop (t.takeWhile (· ≠ 34)).length)
  have key : c ∈ t.takeWhile (· ≠ 34) ∨ c ∈ t.drop (t.takeWhile (· ≠ 34)).length → c ∈ t := by
    rintro (h | h)
    · exact (List.takeWhile_sublist _).subset h
    · exact List.mem_of_mem_drop h
  exact ⟨fun h => key (h1 h), fun h => key (h2 h)⟩

theorem digestValue_mem (s : List Nat) (c : Nat) :
    (c ∈ (AuthHdr.digestValue s).1 → c ∈ s) ∧ (c ∈ (AuthHdr.digestValue s).2 → c ∈ s) := by
  unfold AuthHdr.digestValue
  split
  · rename_i t
    obtain ⟨h1, h2⟩ := skipQuoted_mem t c
    refine ⟨fun h => List.mem_cons_of_mem _ (h1 h), fun h => ?_⟩
    simp only at h
    split at h
    · rename_i u heq
      exact List.mem_cons_of_mem _ (h2 (by rw [heq]; exact List.mem_cons_of_mem _ h))
    · exact List.mem_cons_of_mem _ (h2 h)
  · exact skipWord_mem _ _ _ c

theorem digestLoop_fields : ∀ k s ah, 0 ∉ s → Fields ah → Fields (AuthHdr.digestLoop k s ah) := by
  intro k
  induction k with
  | zero => intro s ah _ h; exact h
  | succ k ih =>
    intro s ah hs h
    simp only [AuthHdr.digestLoop]
    have ha : 0 ∉ (HttpHdr.skipWord [61] [32] (s.dropWhile HttpHdr.isSpace)).2 := fun h0 =>
      hs ((List.dropWhile_sublist _).subset ((skipWord_mem _ _ _ 0).2 h0))
    split
    · exact h
    · exact ih _ _ (fun h0 => ha ((digestValue_mem _ 0).2 h0))
        (setField_fields _ _ _ (fun h0 => ha ((digestValue_mem _ 0).1 h0)) h)

theorem good_digest_fields {odd} {h : List Nat} {ah : Ah} {uid} (hz : 0 ∉ h)
    (hg : parseAuthHeader odd .digest (some h) = .good ah uid) :
    Fields ah ∧ ah.user.isSome ∧ ah.uri.isSome ∧ ah.nonce.isSome ∧ ah.nc.isSome ∧ ah.cnonce.isSome := by
  obtain ⟨_, _, hj⟩ := (good_digest odd h ah uid).1 hg
  obtain ⟨h1, h2, h3⟩ := judge_good hj
  have hf : Fields ah := by
    rw [h1]
    refine digestLoop_fields _ _ _ (fun h0 => hz (List.mem_of_mem_drop h0)) ?_
    constructor <;> simp
  obtain ⟨a, b, c, d⟩ := h2 hf.mode
  exact ⟨hf, h3 (by rw [hf.mode]; decide), a, b, c, d⟩

theorem cstr_no_zero (b : List Nat) : 0 ∉ cstr b := by
  intro h
  have := List.all_takeWhile (p := (· ≠ 0)) (l := b)
  rw [List.all_eq_true] at this
  have := this 0 h
  simp at this

theorem splitBasic_good {both : List Nat} {n : Nat} {ah : Ah} {uid}
    (h : AuthHdr.judge (AuthHdr.splitBasic both n) = .good ah uid) :
    58 ∈ both ∧ both.head? ≠ some 58 ∧
      ah = { mode := .basic, user := some ((both.takeWhile (· ≠ 58)).take 255),
             pwd := some ((both.dropWhile (· ≠ 58)).tail.take 255) } := by
  unfold AuthHdr.splitBasic at h
  split at h
  · simp [AuthHdr.judge] at h
  · rename_i hc
    split at h
    · split at h <;> simp [AuthHdr.judge] at h
    · rename_i hh
      simp only [AuthHdr.judge, reduceCtorEq, false_and, if_false] at h
      injection h with h1 _
      refine ⟨by simpa using hc, hh, h1.symm⟩

/-- Lower-case hexadecimal text. -/
theorem hex2_hex (b : List Nat) (hb : Base64.Bytes b) : b.flatMap hex2 = AuthHdr.hex b := by
  have key : ∀ b : List Nat, Base64.Bytes b → Hex.hexToStr b = some (b.flatMap hex2 ++ [0]) := by
    intro b
    induction b with
    | nil => intro _; rfl
    | cons c b ih =>
      intro hb
      have hc : c < 256 := hb c (by simp)
      have hall : ∀ c < 256, Hex.hexAt (c >>> 4) = some ((hex2 c)[0]!) ∧
          Hex.hexAt (c &&& 0x0f) = some ((hex2 c)[1]!) := by decide +kernel
      obtain ⟨h1, h2⟩ := hall c hc
      simp only [Hex.hexToStr, h1, h2, ih (fun x hx => hb x (List.mem_cons_of_mem _ hx))]
      simp [hex2]
  unfold AuthHdr.hex
  rw [key b hb]
  simp

end Verif.SrvAuth
