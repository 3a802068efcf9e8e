import Verif.SampleArgsLemmas
import Verif.SampleCliProps

/-!
# C131: what the sample client makes of its command line
-/
namespace Verif.SampleArgs
open Verif.SampleCli (Opts Proxy Ev Call End Can worker)
open Verif.ClientResp (atoi)

theorem val_string {as : List Arg} (hs : Strings as) (c : Char) : 0 ∉ val as c := by
  unfold val
  cases h : lastShort as c with
  | none => simp
  | some v =>
    have := List.mem_of_getLast? h
    obtain ⟨a, ha, hv⟩ := List.mem_filterMap.1 this
    have h0 := hs a ha
    cases a with
    | short d w =>
      simp only [ofShort] at hv
      split at hv
      · cases hv; exact h0
      · cases hv
    | long _ _ => cases hv
    | other => cases hv

theorem lastLong_string {as : List Arg} (hs : Strings as) {n : Name} {v : List Nat} (h : lastLong as n = some v) : 0 ∉ v := by
  have := List.mem_of_getLast? h
  obtain ⟨a, ha, hv⟩ := List.mem_filterMap.1 this
  have h0 := hs a ha
  cases a with
  | long d w =>
    simp only [ofLong] at hv
    split at hv
    · cases hv; exact h0
    · cases hv
  | short _ _ => cases hv
  | other => cases hv

theorem valLong_string {as : List Arg} (hs : Strings as) (n : Name) : 0 ∉ valLong as n := by
  unfold valLong
  cases h : lastLong as n with
  | none => simp
  | some v => exact lastLong_string hs h

theorem headD_ne {v : List Nat} (h : 0 ∉ v) : (v.headD 0 != 0) = !v.isEmpty := by
  cases v with
  | nil => rfl
  | cons a v =>
    have : a ≠ 0 := fun e => h (by simp [e])
    simp [this]

theorem headD_eq {v : List Nat} (h : 0 ∉ v) : (v.headD 0 == 0) = v.isEmpty := by
  cases v with
  | nil => rfl
  | cons a v =>
    have : a ≠ 0 := fun e => h (by simp [e])
    simp [this]

/-- What a run has gone through. -/
theorem run_parts {e : Env} {as : List Arg} {o : Opts} {ca : Bool} {th n : Nat} {acts : List Act}
    (h : main e as = .run o ca th n acts) :
    ∃ s a1 a2 a3, options e.fips as {} = .ok s ∧ rejected s = false ∧ trustPart e s = .ok a1 ∧ identPart e s = .ok a2 ∧
      keyPart e s = .ok a3 ∧ opts s = some o ∧ ca = s.trust ∧ th = (if e.threaded then s.threads.toNat else 1) ∧
      n = s.iterations.toNat ∧ acts = a1 ++ a2 ++ a3 := by
  unfold main at h
  split at h
  · cases h
  · rename_i s h1
    split at h
    · cases h
    · rename_i h2
      split at h
      · rename_i x h3
        subst h
        unfold trustPart at h3
        split at h3
        · split at h3
          · cases h3
          · split at h3 <;> cases h3
        · cases h3
      · rename_i a1 h3
        split at h
        · rename_i x h4
          subst h
          unfold identPart at h4
          split at h4
          · rename_i y hy
            cases h4
            split at hy
            · split at hy
              · cases hy
              · split at hy <;> cases hy
            · cases hy
          · split at h4
            · split at h4
              · cases h4
              · split at h4 <;> cases h4
            · cases h4
        · rename_i a2 h4
          split at h
          · rename_i x h5
            subst h
            unfold keyPart at h5
            split at h5
            · rename_i y hy
              cases h5
              split at hy
              · split at hy
                · split at hy <;> cases hy
                · cases hy
              · cases hy
            · split at h5
              · split at h5
                · cases h5
                · split at h5 <;> cases h5
              · cases h5
          · rename_i a3 h5
            split at h
            · cases h
            · rename_i o' h6
              cases h
              exact ⟨s, a1, a2, a3, h1, by simpa using h2, h3, h4, h5, h6, rfl, rfl, rfl, rfl⟩

theorem str_val {v a : List Nat} {m n : Nat} (h0 : 0 ∉ v) (hn : n ≤ m) (h : str (strncpy (List.replicate m 0) v n) = some a) :
    a = v.take n ∧ (v.length < n ∨ n < m) := by
  rw [str_strncpy m n v h0 hn] at h
  split at h
  · rename_i hc
    cases h
    exact ⟨rfl, hc⟩
  · cases h

theorem str_full {v a : List Nat} {n : Nat} (h0 : 0 ∉ v) (h : str (strncpy (List.replicate n 0) v n) = some a) :
    a = v ∧ v.length < n := by
  obtain ⟨h1, h2⟩ := str_val h0 (Nat.le_refl n) h
  have : v.length < n := by omega
  exact ⟨by rw [h1, List.take_of_length_le (by omega)], this⟩

theorem str_block {v : List Nat} {n : Nat} (h0 : 0 ∉ v) : str (block v n) = some (v.take n) := by
  unfold block
  rw [str_strncpy (n + 1) n v h0 (by omega), if_pos (by omega)]

theorem strOpt_block {b : Option (List Nat)} {n : Nat} (h0 : ∀ v, b = some v → 0 ∉ v) :
    strOpt (b.map (block · n)) = some (b.map (·.take n)) := by
  cases b with
  | none => rfl
  | some v =>
    show (str (block v n)).map some = _
    rw [str_block (h0 v rfl)]
    rfl

/-- What the threads find is what the command line says. -/
theorem C131_values (e : Env) (as : List Arg) (o : Opts) (ca : Bool) (th n : Nat) (acts : List Act) (hs : Strings as)
    (h : main e as = .run o ca th n acts) : Meant as o := by
  obtain ⟨s, a1, a2, a3, h1, h2, h3, h4, h5, h6, -⟩ := run_parts h
  unfold opts at h6
  simp only [Option.bind_eq_bind, Option.bind_eq_some_iff] at h6
  obtain ⟨uid, gu, pwd, gp, server, gs, dir, gd, token, gt, su, gsu, sp, gsp, cn, gcn, _, gy, seg, gseg, host, ghost, user, guser,
    ppwd, gpp, ho⟩ := h6
  simp only [Option.some.injEq] at ho
  rw [v_uid h1] at gu
  rw [v_pwd h1] at gp
  rw [v_server h1] at gs
  rw [v_outDir h1] at gd
  rw [v_token h1] at gt
  rw [v_seg h1, strOpt_block (fun v hv => lastLong_string hs hv)] at gseg
  rw [v_proxyServer h1, strOpt_block (fun v hv => lastLong_string hs hv)] at ghost
  rw [v_proxyUser h1, strOpt_block (fun v hv => lastLong_string hs hv)] at guser
  rw [v_proxyPwd h1, strOpt_block (fun v hv => lastLong_string hs hv)] at gpp
  have hu := str_val (val_string hs 'u') (by decide) gu
  have hp := str_val (val_string hs 'h') (by decide) gp
  have hsv := str_full (val_string hs 's') gs
  have hd := str_full (val_string hs 'o') gd
  have ht := str_val (valLong_string hs .authToken) (by decide) gt
  subst ho
  constructor
  · exact hu.1
  · exact hp.1
  · show (first s.clientCert != 0) = _
    rw [v_clientCert h1, first_strncpy _ _ _ (by decide)]
    exact headD_ne (val_string hs 'c')
  · show (first s.clientKey != 0) = _
    rw [v_clientKey h1, first_strncpy _ _ _ (by decide)]
    exact headD_ne (val_string hs 'k')
  · exact v_srp h1
  · intro hsrp
    have hsrp' : s.srp = true := hsrp
    rw [hsrp', strIf, if_pos rfl, v_srpUid h1] at gsu
    exact (str_full (valLong_string hs .srpUser) gsu).1
  · intro hsrp
    have hsrp' : s.srp = true := hsrp
    rw [hsrp', strIf, if_pos rfl, v_srpPwd h1] at gsp
    exact (str_full (valLong_string hs .srpPassword) gsp).1
  · exact v_tokenMode h1
  · exact ht.1
  · intro c1 c2 c3
    have e1 : (s.enroll || s.keygen) = true := c1
    have e2 : s.getcsr = false := c2
    have e3 : (first s.csrFile != 0) = false := c3
    have e4 : (first s.csrFile == 0) = true := by simpa using e3
    rw [e1, e2, e4] at gcn
    simp only [Bool.not_false, Bool.and_self, strIf, if_true] at gcn
    rw [v_cn h1] at gcn
    refine (str_full ?_ gcn).1
    cases hc : lastLong as .commonName with
    | none => decide
    | some v => exact lastLong_string hs hc
  · exact hsv.1
  · exact v_port h1
  · exact (Option.some.inj gseg).symm
  · show host.map _ = _
    rw [← Option.some.inj ghost, Option.map_map, ← Option.some.inj guser, ← Option.some.inj gpp, v_proxyPort h1, v_proto h1, v_auth h1]
    rfl
  · exact v_timeout h1
  · show (first s.csrFile != 0) = _
    rw [v_csrFile h1, first_strncpy _ _ _ (by decide)]
    exact headD_ne (val_string hs 'y')
  · exact v_pem h1
  · exact hd.1
  · exact v_getcert h1
  · exact v_enroll h1
  · exact v_keygen h1
  · exact v_getcsr h1
  · exact v_reenroll h1
  · exact v_forcePop h1

/-- A machine on which everything works. -/
def good : Env := ⟨some [67], fun _ => true, fun _ => true, fun _ _ => true, true, [true], false, true⟩

/-- A command line for an enrolment with a name of one's own. -/
def exLine : List Arg :=
  [.short 's' [101, 115, 116, 46, 101, 120, 97, 109, 112, 108, 101], .short 'p' [56, 48, 56, 53], .short 'e' [], .short 'o' [111, 117, 116], .long .commonName [100, 101, 118, 45, 49], .short 'i' [51],
   .long .srpUser [109, 101], .long .proxyServer [112, 114, 111, 120, 121], .long .proxyAuth [78, 84, 76, 77], .long .proxyAuth [66, 65, 83, 73, 67]]

/-- What the threads find after it. -/
def exOpts : Opts :=
  { cn := [100, 101, 118, 45, 49], server := [101, 115, 116, 46, 101, 120, 97, 109, 112, 108, 101], port := 8085, outDir := [111, 117, 116], enroll := true, srp := true, srpUid := [109, 101],
    proxy := some ⟨[112, 114, 111, 120, 121], 0, 0, 9, none, none⟩ }

theorem exLine_run : main good exLine =
    .run exOpts true 1 3 [.readCa [67], .writeKey [111, 117, 116, 47, 107, 101, 121, 45, 120, 45, 120, 46, 112, 101, 109], .readKey [111, 117, 116, 47, 107, 101, 121, 45, 120, 45, 120, 46, 112, 101, 109]] := by decide +kernel

example : Strings exLine := by unfold Strings exLine; decide +kernel

/-- Combinations that make no sense are refused. -/
theorem C131_nonsense (e : Env) (as : List Arg) (hs : Strings as) (hn : Nonsense as) : ∃ n, main e as = .exit n := by
  unfold main
  split
  · exact ⟨_, rfl⟩
  · rename_i s h1
    have hr : rejected s = true := by
      unfold rejected
      rw [v_uid h1, v_pwd h1, v_csrFile h1, v_keyFile h1, v_outDir h1, v_getcsr h1, v_forcePop h1, v_enroll h1, v_reenroll h1]
      rw [first_strncpy _ _ _ (by decide), first_strncpy _ _ _ (by decide), first_strncpy _ _ _ (by decide),
        first_strncpy _ _ _ (by decide), first_strncpy _ _ _ (by decide)]
      have ev : ∀ c, (lastShort as c).getD [] = val as c := fun _ => rfl
      rw [ev, ev, ev, ev, ev]
      rw [headD_ne (val_string hs 'u'), headD_eq (val_string hs 'h')]
      rw [headD_ne (val_string hs 'y'), headD_ne (val_string hs 'x'), headD_eq (val_string hs 'o')]
      rcases hn with ⟨a, b⟩ | ⟨a, b | b | b⟩ | ⟨a, b⟩ | a
      · simp [a, b]
      · simp [a, b]
      · simp [a, b]
      · simp [a, b]
      · simp [a, b]
      · simp [a]
    rw [if_pos hr]
    exact ⟨1, rfl⟩

example : Nonsense [.short 'e' [], .short 'r' [], .short 'o' [111]] := by
  unfold Nonsense
  decide +kernel

/-- What is refused is what makes no sense, or re-enrolment with a CSR: a command line without
these runs, if the numbers are within their limits, all strings have fewer than 64 bytes and the
files can be read. -/
theorem C131_accepted (e : Env) (as : List Arg) (hs : Strings as) (s : Vars) (ho : options e.fips as {} = .ok s)
    (hlen : ∀ a ∈ as, a.value.length < 64) (hn : ¬ Nonsense as) (hr : has as 'r' = true → val as 'y' = [])
    (hca : s.trust = true → ∃ f, ((as.filterMap ofFile).getLast?.or e.caVar) = some f ∧ e.caOk f = true)
    (hcert : ∀ f, e.certOk f = true) (hkey : ∀ f c, e.keyOk f c = true) (hg : e.genOk = true)
    (hpw : s.cb = .none) : ∃ o ca th n acts, main e as = .run o ca th n acts := by
  have lshort : ∀ c, (val as c).length < 64 := by
    intro c
    unfold val
    cases h : lastShort as c with
    | none => simp
    | some v =>
      obtain ⟨a, ha, hv⟩ := List.mem_filterMap.1 (List.mem_of_getLast? h)
      have h0 := hlen a ha
      cases a with
      | short d w =>
        simp only [ofShort] at hv
        split at hv
        · cases hv; exact h0
        · cases hv
      | long _ _ => cases hv
      | other => cases hv
  have llong : ∀ n v, lastLong as n = some v → v.length < 64 := by
    intro n v h
    obtain ⟨a, ha, hv⟩ := List.mem_filterMap.1 (List.mem_of_getLast? h)
    have h0 := hlen a ha
    cases a with
    | long d w =>
      simp only [ofLong] at hv
      split at hv
      · cases hv; exact h0
      · cases hv
    | short _ _ => cases hv
    | other => cases hv
  have lval : ∀ n, (valLong as n).length < 64 := by
    intro n
    unfold valLong
    cases h : lastLong as n with
    | none => simp
    | some v => exact llong n v h
  have fits : ∀ (v : List Nat) (m : Nat), 0 ∉ v → v.length < 64 → 64 ≤ m → str (strncpy (List.replicate m 0) v m) = some v := by
    intro v m h0 hl hm
    rw [str_strncpy m m v h0 (Nat.le_refl m), if_pos (by omega), List.take_of_length_le (by omega)]
  have fits1 : ∀ (v : List Nat) (m : Nat), 0 ∉ v → str (strncpy (List.replicate (m + 1) 0) v m) = some (v.take m) := by
    intro v m h0
    rw [str_strncpy (m + 1) m v h0 (by omega), if_pos (by omega)]
  have f1 := fits1 _ 255 (val_string hs 'u')
  have f2 := fits1 _ 255 (val_string hs 'h')
  have f3 := fits _ 255 (val_string hs 's') (lshort 's') (by decide)
  have f4 := fits _ 255 (val_string hs 'o') (lshort 'o') (by decide)
  have f5 := fits1 _ 512 (valLong_string hs .authToken)
  have f6 := fits _ 255 (valLong_string hs .srpUser) (lval .srpUser) (by decide)
  have f7 := fits _ 255 (valLong_string hs .srpPassword) (lval .srpPassword) (by decide)
  have f8 := fits _ 255 (val_string hs 'y') (lshort 'y') (by decide)
  have f9 := fits _ 255 (val_string hs 'c') (lshort 'c') (by decide)
  have f10 := fits _ 255 (val_string hs 'k') (lshort 'k') (by decide)
  have f11 := fits _ 255 (val_string hs 'x') (lshort 'x') (by decide)
  have f12 : str s.cn = some ((lastLong as .commonName).getD [49, 50, 55, 46, 48, 46, 48, 46, 49]) := by
    rw [v_cn ho]
    cases hc : lastLong as .commonName with
    | none => decide +kernel
    | some v => exact fits v 64 (lastLong_string hs hc) (llong _ v hc) (by decide)
  have g1 : s.uid = strncpy (List.replicate (255 + 1) 0) (val as 'u') 255 := v_uid ho
  have g2 : s.pwd = strncpy (List.replicate (255 + 1) 0) (val as 'h') 255 := v_pwd ho
  have g3 : s.server = strncpy (List.replicate 255 0) (val as 's') 255 := v_server ho
  have g4 : s.outDir = strncpy (List.replicate 255 0) (val as 'o') 255 := v_outDir ho
  have g5 : s.token = strncpy (List.replicate (512 + 1) 0) (valLong as .authToken) 512 := v_token ho
  have g6 : s.srpUid = strncpy (List.replicate 255 0) (valLong as .srpUser) 255 := v_srpUid ho
  have g7 : s.srpPwd = strncpy (List.replicate 255 0) (valLong as .srpPassword) 255 := v_srpPwd ho
  have g8 : s.csrFile = strncpy (List.replicate 255 0) (val as 'y') 255 := v_csrFile ho
  have g9 : s.clientCert = strncpy (List.replicate 255 0) (val as 'c') 255 := v_clientCert ho
  have g10 : s.clientKey = strncpy (List.replicate 255 0) (val as 'k') 255 := v_clientKey ho
  have g11 : s.keyFile = strncpy (List.replicate 255 0) (val as 'x') 255 := v_keyFile ho
  rw [← g1] at f1
  rw [← g2] at f2
  rw [← g3] at f3
  rw [← g4] at f4
  rw [← g5] at f5
  rw [← g6] at f6
  rw [← g7] at f7
  rw [← g8] at f8
  rw [← g9] at f9
  rw [← g10] at f10
  rw [← g11] at f11
  have hopts : ∃ o, opts s = some o := by
    unfold opts
    simp only [strIf, f1, f2, f3, f4, f5, f6, f7, f8, f12, Option.bind_eq_bind, Option.bind_some]
    rw [v_seg ho, strOpt_block (fun v hv => lastLong_string hs hv), v_proxyServer ho, strOpt_block (fun v hv => lastLong_string hs hv),
      v_proxyUser ho, strOpt_block (fun v hv => lastLong_string hs hv), v_proxyPwd ho, strOpt_block (fun v hv => lastLong_string hs hv)]
    have ite_some : ∀ (c : Prop) [Decidable c] (a b : List Nat), (if c then some a else some b) = some (if c then a else b) := by
      intro c _ a b; split <;> rfl
    simp only [ite_some, Option.bind_some]
    exact ⟨_, rfl⟩
  obtain ⟨o, hopts⟩ := hopts
  have hrej : rejected s = false := by
    have e1 : first s.uid = (val as 'u').headD 0 := by rw [g1, first_strncpy _ _ _ (by decide)]
    have e2 : first s.pwd = (val as 'h').headD 0 := by rw [g2, first_strncpy _ _ _ (by decide)]
    have e3 : first s.csrFile = (val as 'y').headD 0 := by rw [g8, first_strncpy _ _ _ (by decide)]
    have e4 : first s.keyFile = (val as 'x').headD 0 := by rw [g11, first_strncpy _ _ _ (by decide)]
    have e5 : first s.outDir = (val as 'o').headD 0 := by rw [g4, first_strncpy _ _ _ (by decide)]
    have e6 : (s.reenroll && first s.csrFile % 2 == 1) = false := by
      rw [e3, v_reenroll ho]
      cases hh : has as 'r' with
      | false => rfl
      | true => rw [hr hh]; rfl
    unfold rejected
    rw [e6, e1, e2, e3, e4, e5, headD_ne (val_string hs 'u'), headD_eq (val_string hs 'h'), headD_ne (val_string hs 'y'),
      headD_ne (val_string hs 'x'), headD_eq (val_string hs 'o'), v_getcsr ho, v_forcePop ho, v_enroll ho, v_reenroll ho]
    unfold Nonsense at hn
    revert hn
    cases val as 'u' <;> cases val as 'h' <;> cases val as 'y' <;> cases val as 'x' <;> cases val as 'o' <;>
      cases has as 'a' <;> cases has as 'z' <;> cases has as 'e' <;> cases has as 'r' <;> simp
  have htrust : ∃ a1, trustPart e s = .ok a1 := by
    unfold trustPart
    split
    · rename_i ht
      obtain ⟨f, hf, hok⟩ := hca ht
      rw [v_trustFile ho]
      cases hl : (as.filterMap ofFile).getLast? with
      | none =>
        rw [hl] at hf
        have : e.caVar = some f := hf
        simp only [this, hok, if_true]
        exact ⟨_, rfl⟩
      | some g =>
        rw [hl] at hf
        have : g = f := by simpa using hf
        simp only [this, hok, if_true]
        exact ⟨_, rfl⟩
    · exact ⟨_, rfl⟩
  obtain ⟨a1, htrust⟩ := htrust
  have hident : ∃ a2, identPart e s = .ok a2 := by
    unfold identPart
    simp only [f9, f10, hcert, hkey, if_true]
    split
    · rename_i x hx
      split at hx <;> cases hx
    · split <;> exact ⟨_, rfl⟩
  obtain ⟨a2, hident⟩ := hident
  have hkeyp : ∃ a3, keyPart e s = .ok a3 := by
    have hgen : ∀ n : List Nat, str (strncpy s.keyFile ((val as 'o' ++ n).take 254) 255) =
        str (strncpy (List.replicate 255 0) ((val as 'o' ++ n).take 254) 255) := by
      intro n; rw [g11, strncpy_twice]
    unfold keyPart
    simp only [f4, hpw, genKey, hg, hkey, if_true]
    split
    · rename_i x hx
      split at hx <;> cases hx
    · rename_i acts kf hx
      split at hx
      · cases hx
        have : str (strncpy s.keyFile ((val as 'o' ++ [47, 107, 101, 121, 45, 120, 45, 120, 46, 112, 101, 109]).take 254) 255) =
            some ((val as 'o' ++ [47, 107, 101, 121, 45, 120, 45, 120, 46, 112, 101, 109]).take 254) := by
          rw [hgen, str_strncpy 255 255 _ (by
            intro hm
            have := List.mem_of_mem_take hm
            rcases List.mem_append.1 this with hm | hm
            · exact val_string hs 'o' hm
            · revert hm; decide) (Nat.le_refl 255), if_pos (by left; rw [List.length_take]; omega)]
          rw [List.take_of_length_le (l := (val as 'o' ++ _).take 254) (by rw [List.length_take]; omega)]
        rw [this]
        split <;> exact ⟨_, rfl⟩
      · cases hx
        rw [f11]
        split <;> exact ⟨_, rfl⟩
  obtain ⟨a3, hkeyp⟩ := hkeyp
  refine ⟨o, s.trust, if e.threaded then s.threads.toNat else 1, s.iterations.toNat, a1 ++ a2 ++ a3, ?_⟩
  unfold main
  simp only [ho, hrej, htrust, hident, hkeyp, hopts]
  rfl

example : ∃ s, options true exLine {} = .ok s ∧ s.trust = true ∧ s.cb = .none := by
  refine ⟨_, rfl, rfl, rfl⟩

example : ¬ Nonsense exLine := by unfold Nonsense; decide +kernel

/-- Re-enrolment with a CSR of one's own is refused if the name of the file begins with an odd
byte. -/
theorem C131_reenroll_csr_partial (e : Env) (as : List Arg) (b : Nat) (v : List Nat) (hr : has as 'r' = true)
    (hy : val as 'y' = b :: v) (hb : b % 2 = 1) : ∃ n, main e as = .exit n := by
  unfold main
  split
  · exact ⟨_, rfl⟩
  · rename_i s h1
    have hr' : rejected s = true := by
      have e3 : first s.csrFile = b := by
        have g8 : s.csrFile = strncpy (List.replicate 255 0) (val as 'y') 255 := v_csrFile h1
        rw [g8, first_strncpy _ _ _ (by decide), hy]; rfl
      unfold rejected
      rw [e3, v_reenroll h1, hr, hb]
      simp
    rw [if_pos hr']
    exact ⟨1, rfl⟩

example : has [.short 'r' [], .short 'y' [99, 115, 114], .short 'o' [111]] 'r' = true ∧
    val [.short 'r' [], .short 'y' [99, 115, 114], .short 'o' [111]] 'y' = 99 :: [115, 114] := by decide +kernel

/-- That it is refused is false for other names: a CSR `./csr` is accepted, and never used. -/
theorem C131_reenroll_csr_false :
    main good [.short 'r' [], .short 'y' [46, 47, 99, 115, 114], .short 'o' [111]] =
      .run { csrFile := true, reenroll := true, outDir := [111], cn := [] } true 1 1 [.readCa [67]] := by decide +kernel

/-- Numbers: there are at most 10 threads and 1000000 rounds, and the time limit is at most an hour. -/
theorem C131_limits (e : Env) (as : List Arg) (o : Opts) (ca : Bool) (th n : Nat) (acts : List Act)
    (h : main e as = .run o ca th n acts) : th ≤ 10 ∧ n ≤ 1000000 ∧ o.timeout ≤ 3600 := by
  obtain ⟨s, a1, a2, a3, h1, h2, h3, h4, h5, h6, _, ht, hn, _⟩ := run_parts h
  obtain ⟨l1, l2, l3⟩ := v_limits as {} s h1 (by decide)
  have hto : o.timeout = s.timeout := by
    unfold opts at h6
    simp only [Option.bind_eq_bind, Option.bind_eq_some_iff] at h6
    obtain ⟨_, _, _, _, _, _, _, _, _, _, _, _, _, _, _, _, _, _, _, _, _, _, _, _, _, _, ho⟩ := h6
    rw [← Option.some.inj ho]
  refine ⟨?_, by omega, by omega⟩
  rw [ht]
  split <;> omega

/-- The number of rounds and, with threads, of threads is that of the command line. -/
theorem C131_numbers (e : Env) (as : List Arg) (o : Opts) (ca : Bool) (th n : Nat) (acts : List Act)
    (h : main e as = .run o ca th n acts) :
    n = (((lastShort as 'i').map atoi).getD 1).toNat ∧
    (e.threaded = true → th = (((lastShort as 't').map atoi).getD 1).toNat) := by
  obtain ⟨s, a1, a2, a3, h1, h2, h3, h4, h5, h6, _, ht, hn, _⟩ := run_parts h
  refine ⟨by rw [hn, v_iterations h1], fun he => ?_⟩
  rw [ht, if_pos he, v_threads h1]

/-- That the number of threads is that of the command line is false with current versions of OpenSSL:
there is one. -/
theorem C131_threads_false (e : Env) (as : List Arg) (o : Opts) (ca : Bool) (th n : Nat) (acts : List Act)
    (he : e.threaded = false) (h : main e as = .run o ca th n acts) : th = 1 := by
  obtain ⟨s, a1, a2, a3, h1, h2, h3, h4, h5, h6, _, ht, hn, _⟩ := run_parts h
  rw [ht, he]; rfl

example : main good [.short 't' [55], .short 'g' [], .short 'o' [111]] =
    .run { getcert := true, outDir := [111], cn := [] } true 1 1 [.readCa [67]] := by decide +kernel

/-- The trust anchor: unless the name of one begins with `no`, the certificates of the last one given,
or else of the environment variable, were read. -/
theorem C131_trust_partial (e : Env) (as : List Arg) (o : Opts) (ca : Bool) (th n : Nat) (acts : List Act)
    (h : main e as = .run o ca th n acts) (hno : ∀ v, Arg.long .trustanchor v ∈ as → starts v [110, 111] = false) :
    ca = true ∧ ∃ f, (lastLong as .trustanchor).or e.caVar = some f ∧ e.caOk f = true ∧ Act.readCa f ∈ acts := by
  obtain ⟨s, a1, a2, a3, h1, h2, h3, h4, h5, h6, hca, ht, hn, ha⟩ := run_parts h
  have e1 : as.filterMap ofNo = [] := by
    rw [List.filterMap_eq_nil_iff]
    intro a ha
    cases a with
    | long m v => cases m <;> first | rfl | (simp only [ofNo, hno v ha]; rfl)
    | short _ _ => rfl
    | other => rfl
  have e2 : as.filterMap ofFile = as.filterMap (ofLong .trustanchor) := by
    have gen : ∀ l : List Arg, (∀ v, Arg.long .trustanchor v ∈ l → starts v [110, 111] = false) →
        l.filterMap ofFile = l.filterMap (ofLong .trustanchor) := by
      intro l
      induction l with
      | nil => intro _; rfl
      | cons a l ih =>
        intro hl
        have e0 : ofFile a = ofLong .trustanchor a := by
          cases a with
          | long m v => cases m <;> first | rfl | (simp only [ofFile, hl v (by simp)]; rfl)
          | short _ _ => rfl
          | other => rfl
        rw [List.filterMap_cons, List.filterMap_cons, e0, ih (fun v hv => hl v (by simp [hv]))]
    exact gen as hno
  have htr : s.trust = true := by rw [v_trust h1, e1]; rfl
  refine ⟨by rw [hca, htr], ?_⟩
  unfold trustPart at h3
  rw [if_pos htr, v_trustFile h1, e2] at h3
  split at h3
  · cases h3
  · rename_i f hf
    split at h3
    · rename_i hok
      cases h3
      refine ⟨f, ?_, hok, by rw [ha]; simp⟩
      unfold lastLong
      cases hl : (as.filterMap (ofLong .trustanchor)).getLast? with
      | none => rw [hl] at hf; exact hf
      | some g => rw [hl] at hf; simpa using hf
    · cases h3

/-- That the certificates of the trust anchor are used is false for a file whose name begins with `no`:
the client runs without any. -/
theorem C131_trust_false :
    main good [.long .trustanchor [110, 111, 114, 116, 104, 101, 114, 110, 45, 99, 97, 46, 112, 101, 109], .short 'g' [], .short 'o' [111]] =
      .run { getcert := true, outDir := [111], cn := [] } false 1 1 [] := by decide +kernel

/-- Nor does a later one help. -/
theorem C131_trust_later_false :
    main good [.long .trustanchor [110, 111], .long .trustanchor [99, 97, 46, 112, 101, 109], .short 'g' [], .short 'o' [111]] =
      .run { getcert := true, outDir := [111], cn := [] } false 1 1 [] := by decide +kernel

/-- The key: when an enrolment is asked for without a key or CSR, a key is made, stored in the output
directory, and read from there; otherwise none is. -/
theorem C131_key (e : Env) (as : List Arg) (o : Opts) (ca : Bool) (th n : Nat) (acts : List Act) (hs : Strings as)
    (h : main e as = .run o ca th n acts) :
    (has as 'e' = true → val as 'x' = [] → val as 'y' = [] →
      ∃ a, acts = a ++ [.writeKey ((val as 'o' ++ [47, 107, 101, 121, 45, 120, 45, 120, 46, 112, 101, 109]).take 254),
        .readKey ((val as 'o' ++ [47, 107, 101, 121, 45, 120, 45, 120, 46, 112, 101, 109]).take 254)]) ∧
    ((has as 'e' = false ∨ val as 'x' ≠ [] ∨ val as 'y' ≠ []) → ∀ f, Act.writeKey f ∉ acts) := by
  have hm := C131_values e as o ca th n acts hs h
  obtain ⟨s, a1, a2, a3, h1, h2, h3, h4, h5, h6, hca, ht, hn, ha⟩ := run_parts h
  have g4 : s.outDir = strncpy (List.replicate 255 0) (val as 'o') 255 := v_outDir h1
  have g11 : s.keyFile = strncpy (List.replicate 255 0) (val as 'x') 255 := v_keyFile h1
  have g8 : s.csrFile = strncpy (List.replicate 255 0) (val as 'y') 255 := v_csrFile h1
  have e3 : (first s.csrFile == 0) = (val as 'y').isEmpty := by
    rw [g8, first_strncpy _ _ _ (by decide), headD_eq (val_string hs 'y')]
  have e4 : (first s.keyFile == 0) = (val as 'x').isEmpty := by
    rw [g11, first_strncpy _ _ _ (by decide), headD_eq (val_string hs 'x')]
  have n1 : ∀ f, Act.writeKey f ∉ a1 := by
    intro f
    unfold trustPart at h3
    split at h3
    · split at h3
      · cases h3
      · split at h3 <;> cases h3
        simp
    · cases h3; simp
  have n2 : ∀ f, Act.writeKey f ∉ a2 := by
    intro f
    unfold identPart at h4
    split at h4
    · cases h4
    · rename_i b hb
      have nb : Act.writeKey f ∉ b := by
        split at hb
        · split at hb
          · cases hb
          · split at hb <;> cases hb
            simp
        · cases hb; simp
      split at h4
      · split at h4
        · cases h4
        · split at h4 <;> cases h4
          simp [nb]
      · cases h4; exact nb
  constructor
  · intro he hx hy
    refine ⟨a1 ++ a2, ?_⟩
    rw [ha]
    congr 1
    unfold keyPart at h5
    rw [e3, e4, hx, hy, v_enroll h1, he] at h5
    simp only [List.isEmpty_nil, Bool.and_self, Bool.true_or, if_true] at h5
    split at h5
    · cases h5
    · rename_i b kf hb
      split at hb
      · rename_i d p hd hp
        rw [g4] at hd
        have hd' := (str_full (val_string hs 'o') hd).1
        subst hd'
        split at hb
        · cases hb
        · cases hb
        · cases hb
          split at h5
          · cases h5
          · rename_i m hm
            rw [g11, strncpy_twice] at hm
            have hm' := (str_full (by
              intro hz
              rcases List.mem_append.1 (List.mem_of_mem_take hz) with hz | hz
              · exact val_string hs 'o' hz
              · revert hz; decide) hm).1
            subst hm'
            split at h5
            · cases h5; rfl
            · cases h5
      · cases hb
  · intro hc f
    rw [ha]
    simp only [List.mem_append, not_or]
    refine ⟨⟨n1 f, n2 f⟩, ?_⟩
    unfold keyPart at h5
    rw [e3, e4, v_enroll h1] at h5
    have hcond : ((val as 'x').isEmpty && has as 'e' && (val as 'y').isEmpty) = false := by
      rcases hc with hc | hc | hc
      · simp [hc]
      · simp [hc]
      · simp [hc]
    rw [hcond] at h5
    simp only [Bool.false_eq_true, if_false] at h5
    split at h5
    · split at h5
      · cases h5
      · split at h5 <;> cases h5
        simp
    · cases h5; simp

/-- That a key from the server can be asked for without a key of one's own is false: no key is made, and
reading one from a file without a name fails. -/
theorem C131_keygen_false (e : Env) (hk : e.keyOk [] .none = false) (hc : e.caVar = some [67]) (hca : e.caOk [67] = true) :
    main e [.short 'q' [], .short 'o' [111]] = .exit 1 := by
  have h1 : options e.fips [.short 'q' [], .short 'o' [111]] {} =
      .ok { keygen := true, outDir := strncpy (List.replicate 255 0) [111] 255 } := rfl
  unfold main
  rw [h1]
  have h2 : rejected { keygen := true, outDir := strncpy (List.replicate 255 0) [111] 255 } = false := by decide +kernel
  have h3 : trustPart e { keygen := true, outDir := strncpy (List.replicate 255 0) [111] 255 } = .ok [.readCa [67]] := by
    simp [trustPart, hc, hca]
  have h4 : identPart e { keygen := true, outDir := strncpy (List.replicate 255 0) [111] 255 } = .ok [] := rfl
  have h6 : str (List.replicate 255 0) = some [] := by decide +kernel
  have h7 : first (List.replicate 255 0) = 0 := by decide +kernel
  have h5 : keyPart e { keygen := true, outDir := strncpy (List.replicate 255 0) [111] 255 } = .error (.exit 1) := by
    unfold keyPart
    dsimp only
    rw [h7]
    simp only [beq_self_eq_true, Bool.and_false, Bool.and_true, Bool.or_true, Bool.false_eq_true, if_false, if_true, h6, hk]
  simp only [h2, h3, h4, h5]
  rfl

example : main { good with keyOk := fun f _ => f ≠ [] } [.short 'q' [], .short 'o' [111]] = .exit 1 :=
  C131_keygen_false _ rfl rfl rfl

/-- That the program comes to an end is false: with an empty password for the new key it asks OpenSSL
to write the key again and again. -/
theorem C131_password_false :
    main good [.long .keypassArg [], .short 'e' [], .short 'o' [111]] = .busy := by decide +kernel

/-- That strings of any length are safe is false: a server name, and each of the names of files that are
used, has to be shorter than 255 bytes, or the program reads behind the array. -/
theorem C131_long_false (e : Env) (as : List Arg) (hs : Strings as) (hl : 255 ≤ (val as 's').length ∨ 255 ≤ (val as 'o').length) :
    ∀ o ca th n acts, main e as ≠ .run o ca th n acts := by
  intro o ca th n acts h
  obtain ⟨s, a1, a2, a3, h1, h2, h3, h4, h5, h6, -⟩ := run_parts h
  unfold opts at h6
  simp only [Option.bind_eq_bind, Option.bind_eq_some_iff] at h6
  obtain ⟨_, _, _, _, server, gs, dir, gd, _⟩ := h6
  rw [v_server h1] at gs
  rw [v_outDir h1] at gd
  have h7 : (val as 's').length < 255 := (str_full (val_string hs 's') gs).2
  have h8 : (val as 'o').length < 255 := (str_full (val_string hs 'o') gd).2
  omega

/-- It does. -/
theorem C131_long_server_false :
    main good [.short 's' (List.replicate 255 97), .short 'g' [], .short 'o' [111]] = .ub := by decide +kernel

/-- The same for a common name of 64 bytes, which is the length X.520 allows. -/
theorem C131_long_name_false :
    main good [.long .commonName (List.replicate 64 97), .short 'e' [], .short 'o' [111]] = .ub := by decide +kernel

/-- That the protocol SOCKS4A can be asked for is false: its name begins with that of SOCKS4. -/
theorem C131_socks_false (e : Env) (as : List Arg) (o : Opts) (ca : Bool) (th n : Nat) (acts : List Act) (hs : Strings as)
    (h : main e as = .run o ca th n acts) (p : Proxy) (hp : o.proxy = some p) : p.proto ≠ 6 := by
  rw [(C131_values e as o ca th n acts hs h).proxy] at hp
  cases hh : lastLong as .proxyServer with
  | none => rw [hh] at hp; cases hp
  | some v =>
    rw [hh] at hp
    simp only [Option.map_some, Option.some.injEq] at hp
    subst hp
    dsimp only
    have key : ∀ x, (as.filterMap ofProto).getLast? = some x → x = 4 ∨ x = 5 ∨ x = 7 ∨ x = 0 ∨ x = 1 := by
      intro x hx
      obtain ⟨a, _, ha⟩ := List.mem_filterMap.1 (List.mem_of_getLast? hx)
      cases a with
      | long m v =>
        cases m <;> first | cases ha | skip
        all_goals
          simp only [ofProto, protoOf] at ha
          repeat' split at ha
          all_goals first | (cases ha; done) | (cases ha; simp)
      | short _ _ => cases ha
      | other => cases ha
    cases hl : (as.filterMap ofProto).getLast? with
    | none => decide
    | some x =>
      rcases key x hl with rfl | rfl | rfl | rfl | rfl <;> decide

example : main good [.long .proxyServer [112, 114, 111, 120, 121], .long .proxyProto [83, 79, 67, 75, 83, 52, 65], .short 'g' [], .short 'o' [111]] =
    .run { getcert := true, outDir := [111], cn := [], proxy := some ⟨[112, 114, 111, 120, 121], 0, 4, 0, none, none⟩ } true 1 1
      [.readCa [67]] := by decide +kernel

/-- From the command line to the requests: a request that a thread makes was asked for by its option, and
an enrolment without a CSR carries the common name of the command line. -/
theorem C131_requests (e : Env) (as : List Arg) (o : Opts) (ca : Bool) (th n : Nat) (acts : List Act) (hs : Strings as)
    (h : main e as = .run o ca th n acts) (tid f : Nat) (t : List Ev) (x : End Unit) (hc : Can (worker o tid f n 0) t x) :
    ∀ y ∈ t,
      (y.call = .getCacerts → has as 'g' = true) ∧
      (∀ cn, y.call = .enroll cn → has as 'e' = true ∧ cn = (lastLong as .commonName).getD [49, 50, 55, 46, 48, 46, 48, 46, 49]) ∧
      (∀ cn, y.call = .keygenEnroll cn → has as 'q' = true ∧ cn = (lastLong as .commonName).getD [49, 50, 55, 46, 48, 46, 48, 46, 49]) ∧
      (∀ k, y.call = .enrollCsr k → has as 'e' = true ∧ (has as 'a' = true ∨ val as 'y' ≠ [])) ∧
      (∀ k, y.call = .keygenEnrollCsr k → has as 'q' = true ∧ (has as 'a' = true ∨ val as 'y' ≠ [])) ∧
      (y.call = .reenroll → has as 'r' = true) ∧
      (y.call = .getAttrs → has as 'a' = true) ∧
      (y.call = .forcePop → has as 'z' = true) := by
  have m := C131_values e as o ca th n acts hs h
  obtain ⟨ts, rfl, _, _, hall⟩ := SampleCli.C130_thread o tid f n 0 t x hc
  intro y hy
  obtain ⟨l, hl, hyl⟩ := List.mem_flatten.1 hy
  obtain ⟨k, hk, rfl⟩ := List.getElem_of_mem hl
  obtain ⟨z, hz, -⟩ := hall k hk
  have w := SampleCli.C130_wanted o tid (0 + k) f _ z hz y hyl
  have hcsr : o.csrFile = true → val as 'y' ≠ [] := by
    intro hh; rw [m.csrFile] at hh; simpa using hh
  refine ⟨?_, ?_, ?_, ?_, ?_, ?_, ?_, ?_⟩
  · intro hy; rw [hy] at w; rw [← m.getcert]; exact w
  · intro cn hy; rw [hy] at w
    obtain ⟨w1, w2, w3, w4, w5⟩ := w
    exact ⟨by rw [← m.enroll]; exact w1, by rw [w5, m.cn (by simp [w1]) w3 w4]⟩
  · intro cn hy; rw [hy] at w
    obtain ⟨w1, w3, w4, w5⟩ := w
    exact ⟨by rw [← m.keygen]; exact w1, by rw [w5, m.cn (by simp [w1]) w3 w4]⟩
  · intro k hy; rw [hy] at w
    obtain ⟨w1, w2, w3, w4⟩ := w
    exact ⟨by rw [← m.enroll]; exact w1, w4.imp (fun h => by rw [← m.getcsr]; exact h) hcsr⟩
  · intro k hy; rw [hy] at w
    obtain ⟨w1, w3, w4⟩ := w
    exact ⟨by rw [← m.keygen]; exact w1, w4.imp (fun h => by rw [← m.getcsr]; exact h) hcsr⟩
  · intro hy; rw [hy] at w; rw [← m.reenroll]; exact w
  · intro hy; rw [hy] at w; rw [← m.getcsr]; exact w
  · intro hy; rw [hy] at w; rw [← m.forcePop]; exact w.1

end Verif.SampleArgs
