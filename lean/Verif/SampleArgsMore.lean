import Verif.SampleArgsProps

/-!
# C131: which options are understood, and which files are read
-/
namespace Verif.SampleArgs
open Verif.SampleCli (Opts Proxy)
open Verif.ClientResp (atoi)

/-- The options that are understood, and the limits of numbers. -/
def Allowed (fips : Bool) : Arg → Prop
  | .long _ _ => True
  | .short c v =>
    c ∈ ['v', 'z', 'a', 'g', 'e', 'r', 'q', 'u', 'h', 's', 'x', 'y', 'k', 'c', 'o', 'p'] ∨ (c = 'f' ∧ fips = true) ∨
    (c = 't' ∧ atoi v ≤ 10) ∨ (c = 'w' ∧ atoi v ≤ 3600) ∨ (c = 'i' ∧ atoi v ≤ 1000000)
  | .other => False

theorem option_iff (fips : Bool) (a : Arg) (s : Vars) : (∃ t, option fips a s = .ok t) ↔ Allowed fips a := by
  cases a with
  | long n v => exact ⟨fun _ => trivial, fun _ => ⟨_, rfl⟩⟩
  | other =>
    constructor
    · intro ⟨_, h⟩; cases h
    · intro h; cases h
  | short c v =>
    show (∃ t, short fips c v s = .ok t) ↔ _
    unfold short Allowed
    split
    case h_17 => cases fips <;> simp
    case h_18 => by_cases h : atoi v > 10 <;> simp [h] <;> omega
    case h_19 => by_cases h : atoi v > 3600 <;> simp [h] <;> omega
    case h_20 => by_cases h : atoi v > 1000000 <;> simp [h] <;> omega
    case h_21 =>
      constructor
      · intro ⟨_, h⟩; cases h
      · intro h
        exfalso
        simp at h
        grind
    all_goals simp

/-- The options are accepted exactly when each is one that is understood, with a number within its limit; negative
numbers are. -/
theorem C131_options (fips : Bool) (as : List Arg) (s : Vars) : (∃ t, options fips as s = .ok t) ↔ ∀ a ∈ as, Allowed fips a := by
  induction as generalizing s with
  | nil => exact ⟨fun _ a h => by simp at h, fun _ => ⟨s, rfl⟩⟩
  | cons a as ih =>
    rw [options, List.forall_mem_cons, ← option_iff fips a s]
    cases h : option fips a s with
    | error n =>
      constructor
      · intro ⟨_, h⟩; cases h
      · intro ⟨⟨_, h⟩, _⟩; cases h
    | ok t =>
      dsimp only
      rw [ih t]
      exact ⟨fun g => ⟨⟨t, rfl⟩, g⟩, fun g => g.2⟩

example : Allowed false (.short 't' [49, 48]) ∧ ¬ Allowed false (.short 't' [49, 49]) ∧ Allowed false (.short 'w' [45, 49]) := by
  unfold Allowed
  decide +kernel

/-- The certificate and the key of the client are read from the files named, each if it is named. -/
theorem C131_ident (e : Env) (as : List Arg) (o : Opts) (ca : Bool) (th n : Nat) (acts : List Act) (hs : Strings as)
    (h : main e as = .run o ca th n acts) :
    (val as 'c' ≠ [] → .readCert (val as 'c') ∈ acts ∧ e.certOk (val as 'c') = true) ∧
    (val as 'k' ≠ [] → .readKey (val as 'k') ∈ acts ∧ ∃ cb, e.keyOk (val as 'k') cb = true) ∧
    (val as 'c' = [] → ∀ f, .readCert f ∉ acts) := by
  obtain ⟨s, a1, a2, a3, h1, h2, h3, h4, h5, h6, hca, ht, hn, ha⟩ := run_parts h
  have g1 : s.clientCert = strncpy (List.replicate 255 0) (val as 'c') 255 := v_clientCert h1
  have g2 : s.clientKey = strncpy (List.replicate 255 0) (val as 'k') 255 := v_clientKey h1
  have e1 : (first s.clientCert == 0) = (val as 'c').isEmpty := by
    rw [g1, first_strncpy _ _ _ (by decide), headD_eq (val_string hs 'c')]
  have e2 : (first s.clientKey == 0) = (val as 'k').isEmpty := by
    rw [g2, first_strncpy _ _ _ (by decide), headD_eq (val_string hs 'k')]
  have n1 : ∀ f, Act.readCert f ∉ a1 := by
    intro f
    unfold trustPart at h3
    split at h3
    · split at h3
      · cases h3
      · split at h3 <;> cases h3
        simp
    · cases h3; simp
  have n3 : ∀ f, Act.readCert f ∉ a3 := by
    intro f
    unfold keyPart at h5
    split at h5
    · cases h5
    · rename_i b kf hb
      have nb : Act.readCert f ∉ b := by
        split at hb
        · split at hb
          · split at hb
            · cases hb
            · cases hb
            · cases hb; simp
          · cases hb
        · cases hb; simp
      split at h5
      · split at h5
        · cases h5
        · split at h5 <;> cases h5
          simp [nb]
      · cases h5; exact nb
  unfold identPart at h4
  split at h4
  · cases h4
  · rename_i b hb
    have k1 : (val as 'c' ≠ [] → .readCert (val as 'c') ∈ b ∧ e.certOk (val as 'c') = true) ∧ (val as 'c' = [] → b = []) := by
      split at hb
      · rename_i hc
        have hne : val as 'c' ≠ [] := by
          intro hz
          rw [hz] at e1
          simp at e1 hc
          exact hc e1
        refine ⟨fun _ => ?_, fun hz => absurd hz hne⟩
        split at hb
        · cases hb
        · rename_i m hm
          rw [g1] at hm
          have := (str_full (val_string hs 'c') hm).1
          subst this
          split at hb
          · rename_i hok
            cases hb
            exact ⟨by simp, hok⟩
          · cases hb
      · rename_i hc
        have hz : val as 'c' = [] := by
          simp at hc
          rw [hc] at e1
          simpa using e1.symm
        cases hb
        exact ⟨fun hne => absurd hz hne, fun _ => rfl⟩
    have k2 : (∀ x ∈ b, x ∈ a2) ∧ (∀ f, Act.readCert f ∈ a2 → Act.readCert f ∈ b) ∧
        (val as 'k' ≠ [] → .readKey (val as 'k') ∈ a2 ∧ ∃ cb, e.keyOk (val as 'k') cb = true) := by
      split at h4
      · split at h4
        · cases h4
        · rename_i m hm
          rw [g2] at hm
          have := (str_full (val_string hs 'k') hm).1
          subst this
          split at h4
          · rename_i hok
            cases h4
            exact ⟨fun x hx => by simp [hx], fun f hf => by simpa using hf, fun _ => ⟨by simp, _, hok⟩⟩
          · cases h4
      · rename_i hc
        have hz : val as 'k' = [] := by
          simp at hc
          rw [hc] at e2
          simpa using e2.symm
        cases h4
        exact ⟨fun x hx => hx, fun f hf => hf, fun hne => absurd hz hne⟩
    rw [ha]
    refine ⟨fun hne => ⟨?_, (k1.1 hne).2⟩, fun hne => ⟨?_, (k2.2.2 hne).2⟩, fun hz f hf => ?_⟩
    · have := k2.1 _ (k1.1 hne).1
      simp [this]
    · have := (k2.2.2 hne).1
      simp [this]
    · rcases List.mem_append.1 hf with hf | hf
      · rcases List.mem_append.1 hf with hf | hf
        · exact n1 f hf
        · have := k2.2.1 f hf
          rw [k1.2 hz] at this
          simp at this
      · exact n3 f hf

example : main good [.short 'k' [107, 101, 121], .short 'g' [], .short 'o' [111]] =
    .run { getcert := true, key := true, outDir := [111], cn := [] } true 1 1 [.readCa [67], .readKey [107, 101, 121]] := by decide +kernel

/-- A password is asked for until a good one is typed, and the key is made then. -/
theorem C131_typed (fips : Bool) (bad : List Bool) : ∃ o ca acts,
    main { good with typed := bad ++ [true], genOk := false, fips := fips } [.long .keypassStdin [], .short 'e' [], .short 'o' [111]] = .run o ca 1 1 acts ∧
    Act.writeKey [111, 47, 107, 101, 121, 45, 120, 45, 120, 46, 112, 101, 109] ∈ acts := by
  refine ⟨{ enroll := true, outDir := [111], cn := [49, 50, 55, 46, 48, 46, 48, 46, 49] }, true, [.readCa [67], .writeKey [111, 47, 107, 101, 121, 45, 120, 45, 120, 46, 112, 101, 109], .readKey [111, 47, 107, 101, 121, 45, 120, 45, 120, 46, 112, 101, 109]], ?_, by decide⟩
  have h1 : ∀ f, options f [.long .keypassStdin [], .short 'e' [], .short 'o' [111]] {} =
      .ok { enroll := true, cb := .stdin, outDir := strncpy (List.replicate 255 0) [111] 255 } := fun _ => rfl
  unfold main
  rw [h1]
  have h2 : rejected { enroll := true, cb := .stdin, outDir := strncpy (List.replicate 255 0) [111] 255 } = false := by decide +kernel
  have h3 : ∀ e : Env, e.caVar = some [67] → e.caOk [67] = true →
      trustPart e { enroll := true, cb := .stdin, outDir := strncpy (List.replicate 255 0) [111] 255 } = .ok [.readCa [67]] := by
    intro e hc hca
    simp [trustPart, hc, hca]
  have h4 : ∀ e, identPart e { enroll := true, cb := .stdin, outDir := strncpy (List.replicate 255 0) [111] 255 } = .ok [] := fun _ => rfl
  have h7 : first (List.replicate 255 0) = 0 := by decide +kernel
  have h8 : str (strncpy (List.replicate 255 0) [111] 255) = some [111] := by decide +kernel
  have h9 : str (strncpy (List.replicate 255 0) (([111] ++ [47, 107, 101, 121, 45, 120, 45, 120, 46, 112, 101, 109]).take 254) 255) = some [111, 47, 107, 101, 121, 45, 120, 45, 120, 46, 112, 101, 109] := by decide +kernel
  have h5 : ∀ e : Env, genKey e .stdin [] = some true → (∀ f c, e.keyOk f c = true) →
      keyPart e { enroll := true, cb := .stdin, outDir := strncpy (List.replicate 255 0) [111] 255 } =
      .ok [.writeKey [111, 47, 107, 101, 121, 45, 120, 45, 120, 46, 112, 101, 109], .readKey [111, 47, 107, 101, 121, 45, 120, 45, 120, 46, 112, 101, 109]] := by
    intro e hg hk
    unfold keyPart
    dsimp only
    rw [h7, h8]
    simp only [beq_self_eq_true, Bool.and_true, Bool.true_or, if_true, reduceCtorEq, if_false, hg, h9, hk]
    rfl
  have h6 : opts { enroll := true, cb := .stdin, outDir := strncpy (List.replicate 255 0) [111] 255 } =
      some { enroll := true, outDir := [111], cn := [49, 50, 55, 46, 48, 46, 48, 46, 49] } := by decide +kernel
  simp only [h2, h4, h6, h3 { good with typed := bad ++ [true], genOk := false, fips := fips } rfl rfl,
    h5 { good with typed := bad ++ [true], genOk := false, fips := fips } (by simp [genKey]) (fun _ _ => rfl)]
  rfl

/-- And it never stops asking otherwise. -/
theorem C131_typed_false : main { good with typed := [false, false, false] } [.long .keypassStdin [], .short 'e' [], .short 'o' [111]] = .busy := by
  decide +kernel

end Verif.SampleArgs
