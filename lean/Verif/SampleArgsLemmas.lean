import Verif.SampleArgsSpec

/-!
# C131: what the options leave in the variables, for the proofs
-/
namespace Verif.SampleArgs
open Verif.ClientResp (atoi)

/-! ## What the options leave in the variables -/

theorem last_rule {X V : Type} (fips : Bool) (F : Vars → X) (sel : Arg → Option V) (upd : X → V → X)
    (hu : ∀ x u v, upd (upd x u) v = upd x v)
    (hs : ∀ a s s', option fips a s = .ok s' → F s' = (match sel a with | some v => upd (F s) v | none => F s)) :
    ∀ (as : List Arg) (s s' : Vars), options fips as s = .ok s' →
      F s' = (match (as.filterMap sel).getLast? with | some v => upd (F s) v | none => F s)
  | [], s, s', h => by cases h; rfl
  | a :: as, s, s', h => by
    unfold options at h
    split at h
    · cases h
    · rename_i s1 h1
      have ih := last_rule fips F sel upd hu hs as s1 s' h
      have h2 := hs a s s1 h1
      rw [ih, h2]
      cases ha : sel a with
      | none => simp only [List.filterMap_cons, ha]
      | some v =>
        simp only [List.filterMap_cons, ha, List.getLast?_cons]
        cases hl : (as.filterMap sel).getLast? with
        | none => rfl
        | some w => simp only [Option.getD_some, hu]

theorem strncpy_twice (a u v : List Nat) (n : Nat) : strncpy (strncpy a u n) v n = strncpy a v n := by
  unfold strncpy
  have : (u.take n ++ List.replicate (n - u.length) 0).length = n := by simp; omega
  rw [List.drop_append_of_le_length (by omega), List.drop_of_length_le (by omega), List.nil_append]

theorem takeWhile_string : ∀ (l r : List Nat), 0 ∉ l → (l ++ 0 :: r).takeWhile (· ≠ 0) = l
  | [], r, _ => by simp
  | a :: l, r, h => by
    have ha : a ≠ 0 := fun e => h (by simp [e])
    rw [List.cons_append, List.takeWhile_cons_of_pos (by simpa using ha), takeWhile_string l r (fun e => h (by simp [e]))]

/-- A string in an array of zeros, read again. -/
theorem str_strncpy (m n : Nat) (v : List Nat) (h0 : 0 ∉ v) (hn : n ≤ m) :
    str (strncpy (List.replicate m 0) v n) = if v.length < n ∨ n < m then some (v.take n) else none := by
  have ht : 0 ∉ v.take n := fun h => h0 (List.mem_of_mem_take h)
  unfold str strncpy
  rw [List.append_assoc]
  have hd : (List.replicate m 0).drop n = List.replicate (m - n) 0 := by simp
  rw [hd, List.replicate_append_replicate]
  by_cases hc : v.length < n ∨ n < m
  · obtain ⟨k, hk⟩ : ∃ k, n - v.length + (m - n) = k + 1 := ⟨n - v.length + (m - n) - 1, by omega⟩
    rw [hk, List.replicate_succ, if_pos (by simp), if_pos hc, takeWhile_string _ _ ht]
  · have : n - v.length + (m - n) = 0 := by omega
    rw [this, if_neg (by simpa using ht), if_neg hc]

theorem first_strncpy (m n : Nat) (v : List Nat) (hn : 0 < n) :
    first (strncpy (List.replicate m 0) v n) = v.headD 0 := by
  unfold first strncpy
  cases v with
  | nil =>
    obtain ⟨k, rfl⟩ : ∃ k, n = k + 1 := ⟨n - 1, by omega⟩
    simp [List.replicate_succ]
  | cons a v =>
    obtain ⟨k, rfl⟩ : ∃ k, n = k + 1 := ⟨n - 1, by omega⟩
    simp

theorem long_trust (v : List Nat) (s : Vars) : long .trustanchor v s =
    if starts v [110, 111] then { s with trust := false } else { s with trustFile := some v } := by
  cases h : starts v [110, 111]
  · show (if starts v [110, 111] then { s with trust := false } else { s with trustFile := some v } : Vars) = _
    rw [h]
  · show (if starts v [110, 111] then { s with trust := false } else { s with trustFile := some v } : Vars) = _
    rw [h]

theorem long_srp (v s) : long .srp v s = { s with srp := true } := rfl
theorem long_srpUser (v s) : long .srpUser v s = { s with srp := true, srpUid := strncpy s.srpUid v 255 } := rfl
theorem long_srpPassword (v s) : long .srpPassword v s = { s with srp := true, srpPwd := strncpy s.srpPwd v 255 } := rfl
theorem long_authToken (v s) : long .authToken v s = { s with token := strncpy s.token v 512, tokenMode := true } := rfl
theorem long_commonName (v s) : long .commonName v s = { s with cn := strncpy s.cn v 64 } := rfl
theorem long_pemOutput (v s) : long .pemOutput v s = { s with pem := true } := rfl
theorem long_pathSeg (v s) : long .pathSeg v s = { s with seg := some (block v 128) } := rfl
theorem long_keypassStdin (v s) : long .keypassStdin v s = { s with cb := .stdin } := rfl
theorem long_keypassArg (v s) : long .keypassArg v s = { s with keyPwd := strncpy s.keyPwd v 255, cb := .arg } := rfl
theorem long_proxyServer (v s) : long .proxyServer v s = { s with proxyServer := some (block v 255) } := rfl
theorem long_proxyPort (v s) : long .proxyPort v s = { s with proxyPort := atoi v } := rfl
theorem long_proxyProto (v s) : long .proxyProto v s = { s with proxyProto := proto v s.proxyProto } := rfl
theorem long_proxyAuth (v s) : long .proxyAuth v s = { s with proxyAuth := auth v s.proxyAuth } := rfl
theorem long_proxyUsername (v s) : long .proxyUsername v s = { s with proxyUser := some (block v 255) } := rfl
theorem long_proxyPassword (v s) : long .proxyPassword v s = { s with proxyPwd := some (block v 255) } := rfl

/-- What is left for a long option after its effect is known. -/
macro "longs" : tactic => `(tactic| simp only [long_trust, long_srp, long_srpUser, long_srpPassword, long_authToken,
  long_commonName, long_pemOutput, long_pathSeg, long_keypassStdin, long_keypassArg, long_proxyServer, long_proxyPort,
  long_proxyProto, long_proxyAuth, long_proxyUsername, long_proxyPassword])

theorem short_fields (fips : Bool) (c : Char) (v : List Nat) (s s' : Vars) (h : short fips c v s = .ok s') :
    (c, s') ∈ [('v', { s with verbose := true }), ('z', { s with forcePop := true }), ('a', { s with getcsr := true }),
      ('g', { s with getcert := true }), ('e', { s with enroll := true }), ('r', { s with reenroll := true }),
      ('q', { s with keygen := true }), ('u', { s with uid := strncpy s.uid v 255 }), ('h', { s with pwd := strncpy s.pwd v 255 }),
      ('s', { s with server := strncpy s.server v 255 }), ('x', { s with keyFile := strncpy s.keyFile v 255 }),
      ('y', { s with csrFile := strncpy s.csrFile v 255 }), ('k', { s with clientKey := strncpy s.clientKey v 255 }),
      ('c', { s with clientCert := strncpy s.clientCert v 255 }), ('o', { s with outDir := strncpy s.outDir v 255 }),
      ('p', { s with port := atoi v }), ('f', s), ('t', { s with threads := atoi v }), ('w', { s with timeout := atoi v }),
      ('i', { s with iterations := atoi v })] := by
  unfold short at h
  split at h <;> (try split at h) <;> cases h <;> simp

/-- Closes the goal that one option changes one variable as described; what is left is for `t`. -/
macro "onestep_or " t:tactic : tactic => `(tactic| (
  intro a s s' h
  cases a with
  | other => cases h
  | long n v =>
    cases h
    cases n <;> longs <;> (try simp [ofLong, ofShort]) <;> ($t:tactic)
  | short c v =>
    have h2 := short_fields _ _ _ _ _ h
    simp only [List.mem_cons, Prod.mk.injEq, List.not_mem_nil, or_false] at h2
    rcases h2 with ⟨h3, h4⟩ | ⟨h3, h4⟩ | ⟨h3, h4⟩ | ⟨h3, h4⟩ | ⟨h3, h4⟩ | ⟨h3, h4⟩ | ⟨h3, h4⟩ | ⟨h3, h4⟩ | ⟨h3, h4⟩ | ⟨h3, h4⟩ |
      ⟨h3, h4⟩ | ⟨h3, h4⟩ | ⟨h3, h4⟩ | ⟨h3, h4⟩ | ⟨h3, h4⟩ | ⟨h3, h4⟩ | ⟨h3, h4⟩ | ⟨h3, h4⟩ | ⟨h3, h4⟩ | ⟨h3, h4⟩ <;> subst h3 <;> subst h4 <;> rfl))

/-- The same with the usual end. -/
macro "onestep" : tactic => `(tactic| onestep_or (first | (split <;> rfl) | rfl))

section
variable {fips : Bool} {as : List Arg} {s : Vars}

theorem v_uid (h : options fips as {} = .ok s) :
    s.uid = strncpy (List.replicate 256 0) ((lastShort as 'u').getD []) 255 := by
  have := last_rule fips Vars.uid (ofShort 'u') (fun x v => strncpy x v 255) (fun _ _ _ => strncpy_twice _ _ _ _) (by onestep) as {} s h
  rw [this]
  unfold lastShort
  cases (as.filterMap (ofShort 'u')).getLast? with
  | none => decide +kernel
  | some v => rfl

theorem v_pwd (h : options fips as {} = .ok s) :
    s.pwd = strncpy (List.replicate 256 0) ((lastShort as 'h').getD []) 255 := by
  have := last_rule fips Vars.pwd (ofShort 'h') (fun x v => strncpy x v 255) (fun _ _ _ => strncpy_twice _ _ _ _) (by onestep) as {} s h
  rw [this]
  unfold lastShort
  cases (as.filterMap (ofShort 'h')).getLast? with
  | none => decide +kernel
  | some v => rfl

theorem v_srpUid (h : options fips as {} = .ok s) :
    s.srpUid = strncpy (List.replicate 255 0) ((lastLong as .srpUser).getD []) 255 := by
  have := last_rule fips Vars.srpUid (ofLong .srpUser) (fun x v => strncpy x v 255) (fun _ _ _ => strncpy_twice _ _ _ _) (by onestep) as {} s h
  rw [this]
  unfold lastLong
  cases (as.filterMap (ofLong .srpUser)).getLast? with
  | none => decide +kernel
  | some v => rfl

theorem v_srpPwd (h : options fips as {} = .ok s) :
    s.srpPwd = strncpy (List.replicate 255 0) ((lastLong as .srpPassword).getD []) 255 := by
  have := last_rule fips Vars.srpPwd (ofLong .srpPassword) (fun x v => strncpy x v 255) (fun _ _ _ => strncpy_twice _ _ _ _) (by onestep) as {} s h
  rw [this]
  unfold lastLong
  cases (as.filterMap (ofLong .srpPassword)).getLast? with
  | none => decide +kernel
  | some v => rfl

theorem v_server (h : options fips as {} = .ok s) :
    s.server = strncpy (List.replicate 255 0) ((lastShort as 's').getD []) 255 := by
  have := last_rule fips Vars.server (ofShort 's') (fun x v => strncpy x v 255) (fun _ _ _ => strncpy_twice _ _ _ _) (by onestep) as {} s h
  rw [this]
  unfold lastShort
  cases (as.filterMap (ofShort 's')).getLast? with
  | none => decide +kernel
  | some v => rfl

theorem v_token (h : options fips as {} = .ok s) :
    s.token = strncpy (List.replicate 513 0) ((lastLong as .authToken).getD []) 512 := by
  have := last_rule fips Vars.token (ofLong .authToken) (fun x v => strncpy x v 512) (fun _ _ _ => strncpy_twice _ _ _ _) (by onestep) as {} s h
  rw [this]
  unfold lastLong
  cases (as.filterMap (ofLong .authToken)).getLast? with
  | none => decide +kernel
  | some v => rfl

theorem v_csrFile (h : options fips as {} = .ok s) :
    s.csrFile = strncpy (List.replicate 255 0) ((lastShort as 'y').getD []) 255 := by
  have := last_rule fips Vars.csrFile (ofShort 'y') (fun x v => strncpy x v 255) (fun _ _ _ => strncpy_twice _ _ _ _) (by onestep) as {} s h
  rw [this]
  unfold lastShort
  cases (as.filterMap (ofShort 'y')).getLast? with
  | none => decide +kernel
  | some v => rfl

theorem v_keyFile (h : options fips as {} = .ok s) :
    s.keyFile = strncpy (List.replicate 255 0) ((lastShort as 'x').getD []) 255 := by
  have := last_rule fips Vars.keyFile (ofShort 'x') (fun x v => strncpy x v 255) (fun _ _ _ => strncpy_twice _ _ _ _) (by onestep) as {} s h
  rw [this]
  unfold lastShort
  cases (as.filterMap (ofShort 'x')).getLast? with
  | none => decide +kernel
  | some v => rfl

theorem v_clientKey (h : options fips as {} = .ok s) :
    s.clientKey = strncpy (List.replicate 255 0) ((lastShort as 'k').getD []) 255 := by
  have := last_rule fips Vars.clientKey (ofShort 'k') (fun x v => strncpy x v 255) (fun _ _ _ => strncpy_twice _ _ _ _) (by onestep) as {} s h
  rw [this]
  unfold lastShort
  cases (as.filterMap (ofShort 'k')).getLast? with
  | none => decide +kernel
  | some v => rfl

theorem v_clientCert (h : options fips as {} = .ok s) :
    s.clientCert = strncpy (List.replicate 255 0) ((lastShort as 'c').getD []) 255 := by
  have := last_rule fips Vars.clientCert (ofShort 'c') (fun x v => strncpy x v 255) (fun _ _ _ => strncpy_twice _ _ _ _) (by onestep) as {} s h
  rw [this]
  unfold lastShort
  cases (as.filterMap (ofShort 'c')).getLast? with
  | none => decide +kernel
  | some v => rfl

theorem v_outDir (h : options fips as {} = .ok s) :
    s.outDir = strncpy (List.replicate 255 0) ((lastShort as 'o').getD []) 255 := by
  have := last_rule fips Vars.outDir (ofShort 'o') (fun x v => strncpy x v 255) (fun _ _ _ => strncpy_twice _ _ _ _) (by onestep) as {} s h
  rw [this]
  unfold lastShort
  cases (as.filterMap (ofShort 'o')).getLast? with
  | none => decide +kernel
  | some v => rfl

theorem v_keyPwd (h : options fips as {} = .ok s) :
    s.keyPwd = strncpy (List.replicate 255 0) ((lastLong as .keypassArg).getD []) 255 := by
  have := last_rule fips Vars.keyPwd (ofLong .keypassArg) (fun x v => strncpy x v 255) (fun _ _ _ => strncpy_twice _ _ _ _) (by onestep) as {} s h
  rw [this]
  unfold lastLong
  cases (as.filterMap (ofLong .keypassArg)).getLast? with
  | none => decide +kernel
  | some v => rfl

theorem v_cn (h : options fips as {} = .ok s) :
    s.cn = strncpy (List.replicate 64 0) ((lastLong as .commonName).getD [49, 50, 55, 46, 48, 46, 48, 46, 49]) 64 := by
  have := last_rule fips Vars.cn (ofLong .commonName) (fun x v => strncpy x v 64) (fun _ _ _ => strncpy_twice _ _ _ _) (by onestep) as {} s h
  rw [this]
  unfold lastLong
  cases (as.filterMap (ofLong .commonName)).getLast? with
  | none => rfl
  | some v => exact strncpy_twice _ _ _ _

theorem v_verbose (h : options fips as {} = .ok s) : s.verbose = has as 'v' := by
  have := last_rule fips Vars.verbose (ofShort 'v') (fun _ _ => true) (fun _ _ _ => rfl) (by onestep) as {} s h
  rw [this]
  unfold has lastShort
  cases (as.filterMap (ofShort 'v')).getLast? <;> rfl

theorem v_forcePop (h : options fips as {} = .ok s) : s.forcePop = has as 'z' := by
  have := last_rule fips Vars.forcePop (ofShort 'z') (fun _ _ => true) (fun _ _ _ => rfl) (by onestep) as {} s h
  rw [this]
  unfold has lastShort
  cases (as.filterMap (ofShort 'z')).getLast? <;> rfl

theorem v_getcsr (h : options fips as {} = .ok s) : s.getcsr = has as 'a' := by
  have := last_rule fips Vars.getcsr (ofShort 'a') (fun _ _ => true) (fun _ _ _ => rfl) (by onestep) as {} s h
  rw [this]
  unfold has lastShort
  cases (as.filterMap (ofShort 'a')).getLast? <;> rfl

theorem v_getcert (h : options fips as {} = .ok s) : s.getcert = has as 'g' := by
  have := last_rule fips Vars.getcert (ofShort 'g') (fun _ _ => true) (fun _ _ _ => rfl) (by onestep) as {} s h
  rw [this]
  unfold has lastShort
  cases (as.filterMap (ofShort 'g')).getLast? <;> rfl

theorem v_enroll (h : options fips as {} = .ok s) : s.enroll = has as 'e' := by
  have := last_rule fips Vars.enroll (ofShort 'e') (fun _ _ => true) (fun _ _ _ => rfl) (by onestep) as {} s h
  rw [this]
  unfold has lastShort
  cases (as.filterMap (ofShort 'e')).getLast? <;> rfl

theorem v_reenroll (h : options fips as {} = .ok s) : s.reenroll = has as 'r' := by
  have := last_rule fips Vars.reenroll (ofShort 'r') (fun _ _ => true) (fun _ _ _ => rfl) (by onestep) as {} s h
  rw [this]
  unfold has lastShort
  cases (as.filterMap (ofShort 'r')).getLast? <;> rfl

theorem v_keygen (h : options fips as {} = .ok s) : s.keygen = has as 'q' := by
  have := last_rule fips Vars.keygen (ofShort 'q') (fun _ _ => true) (fun _ _ _ => rfl) (by onestep) as {} s h
  rw [this]
  unfold has lastShort
  cases (as.filterMap (ofShort 'q')).getLast? <;> rfl

theorem v_pem (h : options fips as {} = .ok s) : s.pem = hasLong as .pemOutput := by
  have := last_rule fips Vars.pem (ofLong .pemOutput) (fun _ _ => true) (fun _ _ _ => rfl) (by onestep) as {} s h
  rw [this]
  unfold hasLong lastLong
  cases (as.filterMap (ofLong .pemOutput)).getLast? <;> rfl

theorem v_tokenMode (h : options fips as {} = .ok s) : s.tokenMode = hasLong as .authToken := by
  have := last_rule fips Vars.tokenMode (ofLong .authToken) (fun _ _ => true) (fun _ _ _ => rfl) (by onestep) as {} s h
  rw [this]
  unfold hasLong lastLong
  cases (as.filterMap (ofLong .authToken)).getLast? <;> rfl

theorem v_port (h : options fips as {} = .ok s) : s.port = ((lastShort as 'p').map atoi).getD 0 := by
  have := last_rule fips Vars.port (ofShort 'p') (fun _ v => atoi v) (fun _ _ _ => rfl) (by onestep) as {} s h
  rw [this]
  unfold lastShort
  cases (as.filterMap (ofShort 'p')).getLast? <;> rfl

theorem v_threads (h : options fips as {} = .ok s) : s.threads = ((lastShort as 't').map atoi).getD 1 := by
  have := last_rule fips Vars.threads (ofShort 't') (fun _ v => atoi v) (fun _ _ _ => rfl) (by onestep) as {} s h
  rw [this]
  unfold lastShort
  cases (as.filterMap (ofShort 't')).getLast? <;> rfl

theorem v_timeout (h : options fips as {} = .ok s) : s.timeout = ((lastShort as 'w').map atoi).getD 10 := by
  have := last_rule fips Vars.timeout (ofShort 'w') (fun _ v => atoi v) (fun _ _ _ => rfl) (by onestep) as {} s h
  rw [this]
  unfold lastShort
  cases (as.filterMap (ofShort 'w')).getLast? <;> rfl

theorem v_iterations (h : options fips as {} = .ok s) : s.iterations = ((lastShort as 'i').map atoi).getD 1 := by
  have := last_rule fips Vars.iterations (ofShort 'i') (fun _ v => atoi v) (fun _ _ _ => rfl) (by onestep) as {} s h
  rw [this]
  unfold lastShort
  cases (as.filterMap (ofShort 'i')).getLast? <;> rfl

theorem v_proxyPort (h : options fips as {} = .ok s) : s.proxyPort = ((lastLong as .proxyPort).map atoi).getD 0 := by
  have := last_rule fips Vars.proxyPort (ofLong .proxyPort) (fun _ v => atoi v) (fun _ _ _ => rfl) (by onestep) as {} s h
  rw [this]
  unfold lastLong
  cases (as.filterMap (ofLong .proxyPort)).getLast? <;> rfl

theorem v_seg (h : options fips as {} = .ok s) : s.seg = (lastLong as .pathSeg).map (block · 128) := by
  have := last_rule fips Vars.seg (ofLong .pathSeg) (fun _ v => some (block v 128)) (fun _ _ _ => rfl) (by onestep) as {} s h
  rw [this]
  unfold lastLong
  cases (as.filterMap (ofLong .pathSeg)).getLast? <;> rfl

theorem v_proxyServer (h : options fips as {} = .ok s) : s.proxyServer = (lastLong as .proxyServer).map (block · 255) := by
  have := last_rule fips Vars.proxyServer (ofLong .proxyServer) (fun _ v => some (block v 255)) (fun _ _ _ => rfl) (by onestep) as {} s h
  rw [this]
  unfold lastLong
  cases (as.filterMap (ofLong .proxyServer)).getLast? <;> rfl

theorem v_proxyUser (h : options fips as {} = .ok s) : s.proxyUser = (lastLong as .proxyUsername).map (block · 255) := by
  have := last_rule fips Vars.proxyUser (ofLong .proxyUsername) (fun _ v => some (block v 255)) (fun _ _ _ => rfl) (by onestep) as {} s h
  rw [this]
  unfold lastLong
  cases (as.filterMap (ofLong .proxyUsername)).getLast? <;> rfl

theorem v_proxyPwd (h : options fips as {} = .ok s) : s.proxyPwd = (lastLong as .proxyPassword).map (block · 255) := by
  have := last_rule fips Vars.proxyPwd (ofLong .proxyPassword) (fun _ v => some (block v 255)) (fun _ _ _ => rfl) (by onestep) as {} s h
  rw [this]
  unfold lastLong
  cases (as.filterMap (ofLong .proxyPassword)).getLast? <;> rfl

theorem v_srp (h : options fips as {} = .ok s) : s.srp = ((as.filterMap ofSrp).getLast?).isSome := by
  have := last_rule fips Vars.srp ofSrp (fun _ _ => true) (fun _ _ _ => rfl) (by onestep) as {} s h
  rw [this]
  cases (as.filterMap ofSrp).getLast? <;> rfl

theorem v_cb (h : options fips as {} = .ok s) : s.cb = ((as.filterMap ofCb).getLast?).getD .none := by
  have := last_rule fips Vars.cb ofCb (fun _ v => v) (fun _ _ _ => rfl) (by onestep) as {} s h
  rw [this]
  cases (as.filterMap ofCb).getLast? <;> rfl

theorem v_trust (h : options fips as {} = .ok s) : s.trust = ((as.filterMap ofNo).getLast?).isNone := by
  have := last_rule fips Vars.trust ofNo (fun _ _ => false) (fun _ _ _ => rfl) (by
    onestep_or (first | (simp only [ofNo]; split <;> rfl) | rfl)) as {} s h
  rw [this]
  cases (as.filterMap ofNo).getLast? <;> rfl

theorem v_trustFile (h : options fips as {} = .ok s) : s.trustFile = (as.filterMap ofFile).getLast? := by
  have := last_rule fips Vars.trustFile ofFile (fun _ v => some v) (fun _ _ _ => rfl) (by
    onestep_or (first | (simp only [ofFile]; split <;> rfl) | rfl)) as {} s h
  rw [this]
  cases (as.filterMap ofFile).getLast? <;> rfl

theorem starts_trans {v p q : List Nat} (h : starts v (p ++ q) = true) : starts v p = true := by
  simp only [starts, List.isPrefixOf_iff_prefix] at *
  exact (List.prefix_append p q).trans h

theorem proto_eq (v : List Nat) (old : Int) : proto v old = (protoOf v).getD old := by
  unfold proto protoOf
  by_cases h4 : starts v [83, 79, 67, 75, 83, 52] = true
  · simp [h4]
  · have h4a : starts v [83, 79, 67, 75, 83, 52, 65] ≠ true := fun h => h4 (starts_trans (p := [83, 79, 67, 75, 83, 52]) (q := [65]) h)
    rw [if_neg h4, if_neg h4, if_neg h4a]
    repeat' split
    all_goals rfl

theorem v_proto (h : options fips as {} = .ok s) : s.proxyProto = ((as.filterMap ofProto).getLast?).getD 0 := by
  have := last_rule fips Vars.proxyProto ofProto (fun _ v => v) (fun _ _ _ => rfl) (by
    onestep_or (first | (rw [proto_eq]; simp only [ofProto]; cases protoOf _ <;> rfl) | (simp only [ofProto]; split <;> rfl) | rfl)) as {} s h
  rw [this]
  cases (as.filterMap ofProto).getLast? <;> rfl

theorem auth_eq (v : List Nat) (old : Nat) : auth v old = (match ofAuth (.long .proxyAuth v) with | some b => old ||| b | none => old) := by
  unfold auth ofAuth
  dsimp only
  split
  · rfl
  · split <;> rfl

theorem v_auth_step (a : Arg) (s s' : Vars) (h : option fips a s = .ok s') :
    s'.proxyAuth = (match ofAuth a with | some b => s.proxyAuth ||| b | none => s.proxyAuth) := by
  revert a s s'
  onestep_or (first | exact auth_eq _ _ | (simp only [ofAuth]; split <;> rfl) | rfl)

theorem v_auth' : ∀ (as : List Arg) (s s' : Vars), options fips as s = .ok s' →
    s'.proxyAuth = (as.filterMap ofAuth).foldl (· ||| ·) s.proxyAuth
  | [], s, s', h => by cases h; rfl
  | a :: as, s, s', h => by
    unfold options at h
    split at h
    · cases h
    · rename_i s1 h1
      rw [v_auth' as s1 s' h, v_auth_step a s s1 h1]
      cases ha : ofAuth a <;> simp [List.filterMap_cons, ha]

theorem v_auth (h : options fips as {} = .ok s) : s.proxyAuth = (as.filterMap ofAuth).foldl (· ||| ·) 0 :=
  v_auth' as {} s h

theorem v_limits : ∀ (as : List Arg) (s s' : Vars), options fips as s = .ok s' →
    (s.threads ≤ 10 ∧ s.timeout ≤ 3600 ∧ s.iterations ≤ 1000000) →
    s'.threads ≤ 10 ∧ s'.timeout ≤ 3600 ∧ s'.iterations ≤ 1000000
  | [], s, s', h, hl => by cases h; exact hl
  | a :: as, s, s', h, hl => by
    unfold options at h
    split at h
    · cases h
    · rename_i s1 h1
      refine v_limits as s1 s' h ?_
      cases a with
      | other => cases h1
      | long n v =>
        cases h1
        cases n <;> longs <;> (try exact hl)
        split <;> exact hl
      | short c v =>
        simp only [option, short] at h1
        split at h1 <;> (try split at h1) <;> cases h1 <;> (try exact hl)
        all_goals (simp only at *; omega)

end

end Verif.SampleArgs
