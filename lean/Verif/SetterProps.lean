import Verif.SetterModel
import Verif.EstUriProps

/-!
# Properties of the configuration calls (C30, C31, C32, C69, C70, C71)
-/
namespace Verif.Setter
open Verif.EstUri (pathEnd splitSlash parseOperation uriSegments textFrom SegText SameFold opName isBrski parseUriLib Op)

/-! ## Character arrays -/

/-- A C string: no NUL inside. -/
def NoNul (s : List Nat) : Prop := ∀ c ∈ s, c ≠ 0

/-- An array of 256 characters whose last one is NUL. -/
def Terminated (a : List Nat) : Prop := a.length = 256 ∧ a[255]? = some 0

theorem zeros_terminated : Terminated zeros := by
  unfold Terminated zeros
  exact ⟨List.length_replicate, by decide⟩

theorem cstr_append (s t : List Nat) (h : NoNul s) : cstr (s ++ 0 :: t) = s := by
  induction s with
  | nil => simp [cstr]
  | cons a s ih =>
    have ha : a ≠ 0 := h a (by simp)
    have hs : NoNul s := fun c hc => h c (by simp [hc])
    have := ih hs
    unfold cstr at this ⊢
    rw [List.cons_append, List.takeWhile_cons_of_pos (by simpa using ha), this]

theorem take_noNul (s : List Nat) (n : Nat) (h : NoNul s) : NoNul (s.take n) :=
  fun c hc => h c (List.mem_of_mem_take hc)

/-- Copying into a terminated array keeps the termination. -/
theorem strcpyS_terminated (a s : List Nat) (n : Nat) (h : Terminated a)
    (hn : n = 255 ∨ (n = 256 ∧ s.length ≤ 255)) : Terminated (strcpyS a n s) := by
  obtain ⟨hl, hz⟩ := h
  unfold Terminated strcpyS
  have len1 : (s.take n ++ List.replicate (n - s.length) 0).length = n := by
    rw [List.length_append, List.length_take, List.length_replicate]; omega
  refine ⟨by rw [List.length_append, len1, List.length_drop]; omega, ?_⟩
  rcases hn with rfl | ⟨rfl, hs⟩
  · rw [List.getElem?_append_right (by rw [len1]; exact Nat.le_refl _), len1, List.getElem?_drop]
    exact hz
  · rw [List.getElem?_append_left (by rw [len1]; omega),
      List.getElem?_append_right (by rw [List.length_take]; omega), List.length_take,
      List.getElem?_replicate, if_pos (by omega)]

/-- A text of at most 255 characters arrives whole. -/
theorem strcpyS_cstr (a s : List Nat) (n : Nat) (h : Terminated a) (hn : n = 255 ∨ n = 256)
    (hs : s.length ≤ 255) (hz : NoNul s) : cstr (strcpyS a n s) = s := by
  obtain ⟨hl, hlast⟩ := h
  unfold strcpyS
  rcases hn with rfl | rfl
  · rw [List.take_of_length_le hs]
    rcases Nat.lt_or_ge s.length 255 with hlt | hge
    · have : List.replicate (255 - s.length) 0 = 0 :: List.replicate (254 - s.length) 0 := by
        rw [← List.replicate_succ]; congr 1; omega
      rw [this, List.append_assoc, List.cons_append]
      exact cstr_append _ _ hz
    · have h0 : 255 - s.length = 0 := by omega
      rw [h0, List.replicate_zero, List.append_nil]
      have hd : a.drop 255 = [0] := by
        match ha : a.drop 255 with
        | [] =>
          have := congrArg List.length ha
          rw [List.length_drop] at this; simp at this; omega
        | x :: y :: r =>
          have := congrArg List.length ha
          rw [List.length_drop] at this; simp at this; omega
        | [x] =>
          have : (a.drop 255)[0]? = some 0 := by rw [List.getElem?_drop]; exact hlast
          rw [ha] at this
          simpa using this
      rw [hd]
      exact cstr_append _ _ hz
  · rw [List.take_of_length_le (by omega)]
    have : List.replicate (256 - s.length) 0 = 0 :: List.replicate (255 - s.length) 0 := by
      rw [← List.replicate_succ]; congr 1; omega
    rw [this, List.append_assoc, List.cons_append]
    exact cstr_append _ _ hz

theorem strncpyS_cstr (a s : List Nat) (hz : NoNul s) : cstr (strncpyS a 255 s) = s.take 255 :=
  cstr_append _ _ (take_noNul _ _ hz)

/-! ## C30: ranges of the server's settings -/

/-- The documented ranges (`est.h`). -/
structure InRange (s : Srv) : Prop where
  retry : 60 ≤ s.retry ∧ s.retry ≤ 172800
  brski : 1 ≤ s.brskiRetry ∧ s.brskiRetry ≤ 70
  read : 1 ≤ s.readTimeout ∧ s.readTimeout ≤ 3600
  timer : s.timer = 0 ∨ 2 ≤ s.timer ∧ s.timer ≤ 60
  mtu : s.mtu = 0 ∨ 256 ≤ s.mtu ∧ s.mtu ≤ 1152
  sess : 2 ≤ s.sessMax ∧ s.sessMax ≤ 128
  mode : s.authMode = 1 ∨ s.authMode = 2 ∨ s.authMode = 3

/-- What each numeric setter does, outright. -/
theorem C30_setters (lib : Lib) (s : Srv) (v : Int) :
    step lib s (.setRetry v) =
      (if 60 ≤ v ∧ v ≤ 172800 then (.none, { s with retry := v }) else (.invalidParameters, s)) ∧
    step lib s (.setBrskiRetry v) =
      (if 1 ≤ v ∧ v ≤ 70 then (.none, { s with brskiRetry := v }) else (.invalidParameters, s)) ∧
    step lib s (.setReadTimeout v) =
      (if 1 ≤ v ∧ v ≤ 3600 then (.none, { s with readTimeout := v })
       else (.invalidParameters, s)) ∧
    (lib.libcoap = true → step lib s (.setDtlsTimeout v) =
      (if v = 0 ∨ 2 ≤ v ∧ v ≤ 60 then (.none, { s with timer := v })
       else (.invalidParameters, s))) ∧
    (lib.libcoap = true → step lib s (.setDtlsMtu v) =
      (if v = 0 ∨ 256 ≤ v ∧ v ≤ 1152 then (.none, { s with mtu := v })
       else (.invalidParameters, s))) ∧
    (lib.libcoap = true → s.port = 0 → step lib s (.setSessionMax v true) =
      (if 2 ≤ v ∧ v ≤ 128 then (.none, { s with sessMax := v, arr := some v, arrMax := v })
       else (.invalidParameters, s))) ∧
    step lib s (.setAuthMode v) =
      (if v = 1 ∨ v = 3 ∨ (v = 2 ∧ lib.fips = false) then (.none, { s with authMode := v })
       else (.badMode, s)) := by
  refine ⟨?_, ?_, ?_, ?_, ?_, ?_, ?_⟩
  · simp only [step, setRetry]
    by_cases h1 : v > 172800
    · rw [if_pos h1, if_neg (by omega)]
    · rw [if_neg h1]
      by_cases h2 : v < 60
      · rw [if_pos h2, if_neg (by omega)]
      · rw [if_neg h2, if_pos (by omega)]
  · simp only [step, setBrskiRetry]
    by_cases h1 : v > 70
    · rw [if_pos h1, if_neg (by omega)]
    · rw [if_neg h1]
      by_cases h2 : v < 1
      · rw [if_pos h2, if_neg (by omega)]
      · rw [if_neg h2, if_pos (by omega)]
  · simp only [step, setReadTimeout]
    by_cases h1 : v < 1 ∨ v > 3600
    · rw [if_pos h1, if_neg (by omega)]
    · rw [if_neg h1, if_pos (by omega)]
  · intro hc
    simp only [step, setDtlsTimeout, hc, Bool.not_true, Bool.false_eq_true, if_false]
    by_cases h1 : v ≠ 0 ∧ (v < 2 ∨ v > 60)
    · rw [if_pos h1, if_neg (by omega)]
    · rw [if_neg h1, if_pos (by omega)]
  · intro hc
    simp only [step, setDtlsMtu, hc, Bool.not_true, Bool.false_eq_true, if_false]
    by_cases h1 : v ≠ 0 ∧ (v < 256 ∨ v > 1152)
    · rw [if_pos h1, if_neg (by omega)]
    · rw [if_neg h1, if_pos (by omega)]
  · intro hc hp
    simp only [step, setSessionMax, initReqArray, hc, hp, Bool.not_true, Bool.false_eq_true,
      if_false, ne_eq, not_true_eq_false]
    by_cases h1 : v < 2 ∨ v > 128
    · rw [if_pos h1, if_neg (by omega)]
    · rw [if_neg h1, if_pos (by omega)]
  · simp only [step, setAuthMode]
    by_cases h2 : v = 2
    · subst h2
      cases hf : lib.fips <;> simp
    · rw [if_neg h2]
      by_cases h1 : v = 1 ∨ v = 3
      · rw [if_pos h1, if_pos (by omega)]
      · rw [if_neg h1, if_neg (by omega)]

example : (step ⟨true, false, fun _ => none, fun _ => none, fun _ => none⟩ Srv.init (.setRetry 60)).1
    = .none ∧
    (step ⟨true, false, fun _ => none, fun _ => none, fun _ => none⟩ Srv.init (.setRetry 59)).1
    = .invalidParameters := by decide

theorem inRange_init : InRange Srv.init := by
  constructor <;> decide

theorem loadMfg_keeps (lib : Lib) (s : Srv) (n c : Option (List Nat)) (i : Int) (a b d : Bool) :
    ∃ m, (addMfg lib s n i c a b d).2 = { s with mfgs := m } := by
  unfold addMfg
  split
  · split
    · exact ⟨s.mfgs, rfl⟩
    · split
      · exact ⟨s.mfgs, rfl⟩
      · split
        · split
          · exact ⟨s.mfgs, rfl⟩
          · exact ⟨_, rfl⟩
        · exact ⟨_, rfl⟩
  · exact ⟨s.mfgs, rfl⟩

theorem initCsrattrs_keeps (lib : Lib) (s : Srv) (t : Option (List Nat)) (a : Bool) :
    ∃ x y, (initCsrattrs lib s t a).2 = { s with csrattrs := x, popPresent := y } := by
  unfold initCsrattrs
  simp only
  repeat' split
  all_goals exact ⟨_, _, rfl⟩

theorem enableEca_keeps (s : Srv) (n : Int) (p : Option (List Nat)) (c : Int) :
    ∃ w x y z, (enableEca s n p c).2 = { s with ecaNid := w, ecaPwd := x, ecaCheck := y, eca := z } := by
  unfold enableEca
  simp only
  repeat' split
  all_goals exact ⟨_, _, _, _, rfl⟩

theorem inRange_step (lib : Lib) (s : Srv) (op : SrvOp) (h : InRange s) :
    InRange (step lib s op).2 := by
  obtain ⟨h1, h2, h3, h4, h5, h6, h7⟩ := h
  cases op with
  | setAuthMode m =>
    simp only [step, setAuthMode]
    repeat' split
    all_goals first
      | exact ⟨h1, h2, h3, h4, h5, h6, h7⟩
      | exact ⟨h1, h2, h3, h4, h5, h6, by simp only; omega⟩
  | setRequired v => exact ⟨h1, h2, h3, h4, h5, h6, h7⟩
  | setRetry v =>
    simp only [step, setRetry]
    repeat' split
    all_goals first
      | exact ⟨h1, h2, h3, h4, h5, h6, h7⟩
      | exact ⟨by simp only; omega, h2, h3, h4, h5, h6, h7⟩
  | setBrskiRetry v =>
    simp only [step, setBrskiRetry]
    repeat' split
    all_goals first
      | exact ⟨h1, h2, h3, h4, h5, h6, h7⟩
      | exact ⟨h1, by simp only; omega, h3, h4, h5, h6, h7⟩
  | setReadTimeout v =>
    simp only [step, setReadTimeout]
    repeat' split
    all_goals first
      | exact ⟨h1, h2, h3, h4, h5, h6, h7⟩
      | exact ⟨h1, h2, by simp only; omega, h4, h5, h6, h7⟩
  | setDtlsTimeout v =>
    simp only [step, setDtlsTimeout]
    repeat' split
    all_goals first
      | exact ⟨h1, h2, h3, h4, h5, h6, h7⟩
      | exact ⟨h1, h2, h3, by simp only; omega, h5, h6, h7⟩
  | setDtlsMtu v =>
    simp only [step, setDtlsMtu]
    repeat' split
    all_goals first
      | exact ⟨h1, h2, h3, h4, h5, h6, h7⟩
      | exact ⟨h1, h2, h3, h4, by simp only; omega, h6, h7⟩
  | setSessionMax v a =>
    simp only [step, setSessionMax, initReqArray]
    repeat' split
    all_goals first
      | exact ⟨h1, h2, h3, h4, h5, h6, h7⟩
      | exact ⟨h1, h2, h3, h4, h5, by simp only; omega, h7⟩
  | coapStart p ok =>
    simp only [step, coapStart]
    repeat' split
    all_goals exact ⟨h1, h2, h3, h4, h5, h6, h7⟩
  | enablePop => exact ⟨h1, h2, h3, h4, h5, h6, h7⟩
  | disablePop => exact ⟨h1, h2, h3, h4, h5, h6, h7⟩
  | initCsrattrs t a =>
    obtain ⟨x, y, e⟩ := initCsrattrs_keeps lib s t a
    simp only [step]; rw [e]
    exact ⟨h1, h2, h3, h4, h5, h6, h7⟩
  | enforceCsrattr => exact ⟨h1, h2, h3, h4, h5, h6, h7⟩
  | enableEca n p c =>
    obtain ⟨w, x, y, z, e⟩ := enableEca_keeps s n p c
    simp only [step]; rw [e]
    exact ⟨h1, h2, h3, h4, h5, h6, h7⟩
  | disableEca =>
    simp only [step, disableEca]
    repeat' split
    all_goals exact ⟨h1, h2, h3, h4, h5, h6, h7⟩
  | addMfg n i c a b d =>
    obtain ⟨m, e⟩ := loadMfg_keeps lib s n c i a b d
    simp only [step]; rw [e]
    exact ⟨h1, h2, h3, h4, h5, h6, h7⟩

theorem inRange_runFrom (lib : Lib) (ops : List SrvOp) (s : Srv) (h : InRange s) :
    InRange (runFrom lib s ops) := by
  induction ops generalizing s with
  | nil => exact h
  | cons op ops ih => exact ih _ (inRange_step lib s op h)

/-- C30: after any sequence of configuration calls with any arguments every setting is in its
documented range. -/
theorem C30_ranges (lib : Lib) (ops : List SrvOp) : InRange (run lib ops) :=
  inRange_runFrom lib ops _ inRange_init

/-- Library parameters for the examples. -/
def exLib : Lib :=
  { libcoap := true, fips := false, loadStore := fun c => some c.length,
    attrs := fun _ => some true, addPop := fun t => some t }

example : run exLib [.setRetry 61, .setRetry 5, .setSessionMax 2 true, .setDtlsMtu 255]
    = { Srv.init with retry := 61, sessMax := 2, arr := some 2, arrMax := 2 } := by decide +kernel

/-- The setters C30 speaks of. -/
def Numeric : SrvOp → Prop
  | .setAuthMode _ | .setRetry _ | .setBrskiRetry _ | .setReadTimeout _ | .setDtlsTimeout _
  | .setDtlsMtu _ | .setSessionMax _ _ => True
  | _ => False

/-- C30, the part that holds: a call refused for any reason but lack of memory changes
nothing. -/
theorem C30_rejected_unchanged_partial (lib : Lib) (s : Srv) (op : SrvOp) (h : Numeric op)
    (hr : (step lib s op).1 ≠ .none) (hm : (step lib s op).1 ≠ .malloc) :
    (step lib s op).2 = s := by
  cases op <;> simp only [Numeric] at h
  all_goals
    simp only [step, setAuthMode, setRetry, setBrskiRetry, setReadTimeout, setDtlsTimeout,
      setDtlsMtu, setSessionMax, initReqArray] at hr hm ⊢
    repeat' split at hr
    all_goals simp_all

example : (step exLib Srv.init (.setDtlsTimeout 61)).1 = .invalidParameters := by decide

/-- C30 is false as stated: when the table for the new session maximum cannot be allocated, the
call reports an error but the maximum is changed and the old table is gone, while the recorded
table size stays (so that the next CoAP request dereferences NULL). -/
theorem C30_out_of_memory_false :
    (step exLib Srv.init (.setSessionMax 64 false)).1 = .malloc ∧
    (step exLib Srv.init (.setSessionMax 64 false)).2.sessMax = 64 ∧
    (step exLib Srv.init (.setSessionMax 64 false)).2.arr = none ∧
    (step exLib Srv.init (.setSessionMax 64 false)).2.arrMax = 32 := by decide

/-- C30: in FIPS mode Digest is never selected. -/
theorem C30_fips_no_digest (lib : Lib) (hf : lib.fips = true) (ops : List SrvOp) :
    (run lib ops).authMode ≠ 2 := by
  have key : ∀ (ops : List SrvOp) (s : Srv), s.authMode ≠ 2 → (runFrom lib s ops).authMode ≠ 2 := by
    intro ops
    induction ops with
    | nil => intro s h; exact h
    | cons op ops ih =>
      intro s h
      apply ih
      cases op with
      | setAuthMode m =>
        simp only [step, setAuthMode, hf, if_true]
        repeat' split
        all_goals first
          | exact h
          | (simp only; omega)
      | initCsrattrs t a =>
        obtain ⟨x, y, e⟩ := initCsrattrs_keeps lib s t a
        simp only [step]; rw [e]; exact h
      | enableEca n p c =>
        obtain ⟨w, x, y, z, e⟩ := enableEca_keeps s n p c
        simp only [step]; rw [e]; exact h
      | addMfg n i c a b d =>
        obtain ⟨m, e⟩ := loadMfg_keeps lib s n c i a b d
        simp only [step]; rw [e]; exact h
      | _ =>
        simp only [step, setRetry, setBrskiRetry, setReadTimeout, setDtlsTimeout, setDtlsMtu,
          setSessionMax, initReqArray, coapStart, disableEca]
        repeat' split
        all_goals exact h
  exact key ops _ (by decide)

/-! ## C71: the CoAP request table and the session maximum -/

/-- No allocation of the table fails. -/
def TableAllocated : SrvOp → Prop
  | .setSessionMax _ a => a = true
  | _ => True

/-- C71, part that holds: as long as the allocations succeed, the CoAP request table has exactly
the configured number of entries and the bound used for searching is that number. -/
theorem C71_table_size_partial (lib : Lib) (ops : List SrvOp) (ha : ∀ op ∈ ops, TableAllocated op) :
    (run lib ops).arr = some (run lib ops).sessMax ∧
    (run lib ops).arrMax = (run lib ops).sessMax := by
  have key : ∀ (ops : List SrvOp) (s : Srv), (∀ op ∈ ops, TableAllocated op) →
      (s.arr = some s.sessMax ∧ s.arrMax = s.sessMax) →
      ((runFrom lib s ops).arr = some (runFrom lib s ops).sessMax ∧
        (runFrom lib s ops).arrMax = (runFrom lib s ops).sessMax) := by
    intro ops
    induction ops with
    | nil => intro s _ h; exact h
    | cons op ops ih =>
      intro s ha h
      have h1 := ha op (by simp)
      apply ih _ (fun o ho => ha o (by simp [ho]))
      cases op with
      | setAuthMode m =>
        simp only [step, setAuthMode]
        repeat' split
        all_goals exact h
      | initCsrattrs t a =>
        obtain ⟨x, y, e⟩ := initCsrattrs_keeps lib s t a
        simp only [step]; rw [e]; exact h
      | enableEca n p c =>
        obtain ⟨w, x, y, z, e⟩ := enableEca_keeps s n p c
        simp only [step]; rw [e]; exact h
      | addMfg n i c a b d =>
        obtain ⟨m, e⟩ := loadMfg_keeps lib s n c i a b d
        simp only [step]; rw [e]; exact h
      | setSessionMax v a =>
        simp only [TableAllocated] at h1
        subst h1
        simp only [step, setSessionMax, initReqArray, Bool.not_true, Bool.false_eq_true, if_false]
        repeat' split
        all_goals first
          | exact h
          | exact ⟨rfl, rfl⟩
      | _ =>
        simp only [step, setRetry, setBrskiRetry, setReadTimeout, setDtlsTimeout, setDtlsMtu,
          coapStart, disableEca]
        repeat' split
        all_goals exact h
  exact key ops _ ha (by decide)

example : (run exLib [.setSessionMax 128 true, .coapStart 5683 true, .setSessionMax 2 true]).arr
    = some 128 := by decide

/-- C71, part that holds: once the server was started on a port other than 0 the table is never
replaced or resized. -/
theorem C71_running_table_kept_partial (lib : Lib) (s : Srv) (ops : List SrvOp)
    (hp : 0 < s.port) (hz : ∀ p ok, SrvOp.coapStart p ok ∈ ops → p ≠ 0) :
    (runFrom lib s ops).arr = s.arr ∧ (runFrom lib s ops).arrMax = s.arrMax ∧
    (runFrom lib s ops).sessMax = s.sessMax := by
  induction ops generalizing s with
  | nil => exact ⟨rfl, rfl, rfl⟩
  | cons op ops ih =>
    have hz' : ∀ p ok, SrvOp.coapStart p ok ∈ ops → p ≠ 0 := fun p ok h => hz p ok (by simp [h])
    have one : 0 < (step lib s op).2.port ∧ (step lib s op).2.arr = s.arr ∧
        (step lib s op).2.arrMax = s.arrMax ∧ (step lib s op).2.sessMax = s.sessMax := by
      cases op with
      | initCsrattrs t a =>
        obtain ⟨x, y, e⟩ := initCsrattrs_keeps lib s t a
        simp only [step]; rw [e]; exact ⟨hp, rfl, rfl, rfl⟩
      | enableEca n p c =>
        obtain ⟨w, x, y, z, e⟩ := enableEca_keeps s n p c
        simp only [step]; rw [e]; exact ⟨hp, rfl, rfl, rfl⟩
      | addMfg n i c a b d =>
        obtain ⟨m, e⟩ := loadMfg_keeps lib s n c i a b d
        simp only [step]; rw [e]; exact ⟨hp, rfl, rfl, rfl⟩
      | setSessionMax v a =>
        simp only [step, setSessionMax]
        have : s.port ≠ 0 := by omega
        rw [if_pos this]
        split <;> exact ⟨hp, rfl, rfl, rfl⟩
      | coapStart p ok =>
        have hp0 := hz p ok (by simp)
        simp only [step, coapStart]
        repeat' split
        all_goals first
          | exact ⟨hp, rfl, rfl, rfl⟩
          | exact ⟨by simp only; omega, rfl, rfl, rfl⟩
      | _ =>
        simp only [step, setAuthMode, setRetry, setBrskiRetry, setReadTimeout, setDtlsTimeout,
          setDtlsMtu, disableEca]
        repeat' split
        all_goals simp [hp]
    obtain ⟨o1, o2, o3, o4⟩ := one
    obtain ⟨i1, i2, i3⟩ := ih _ o1 hz'
    exact ⟨by rw [← o2]; exact i1, by rw [← o3]; exact i2, by rw [← o4]; exact i3⟩

example : (runFrom exLib { Srv.init with port := 5683 } [.setSessionMax 2 true]).arr = some 32 := by
  decide

/-- C71 is false as stated (1): port 0 is accepted by `est_server_coap_init_start`, but the
port number is also the sign of a running server.  The table of the running server is replaced
by a new one, and the requests in progress are lost. -/
theorem C71_port_zero_false :
    (step exLib Srv.init (.coapStart 0 true)).1 = .none ∧
    (step exLib Srv.init (.coapStart 0 true)).2.coap = true ∧
    (step exLib (step exLib Srv.init (.coapStart 0 true)).2 (.setSessionMax 2 true)).1 = .none ∧
    (step exLib (step exLib Srv.init (.coapStart 0 true)).2 (.setSessionMax 2 true)).2.arr
      = some 2 := by decide

/-- C71 is false as stated (2): after a failed start the session maximum can no longer be set,
although no server is running. -/
theorem C71_failed_start_locks_false :
    (step exLib Srv.init (.coapStart 5683 false)).1 = .coapProcessingError ∧
    (step exLib Srv.init (.coapStart 5683 false)).2.coap = false ∧
    (step exLib (step exLib Srv.init (.coapStart 5683 false)).2 (.setSessionMax 64 true)).1
      = .serverAlreadyOperational := by decide

/-! ## C32: the manufacturer list -/

/-- A registered manufacturer: name, subject field, trust store. -/
structure Mfg where
  name : List Nat
  nid : Int
  store : Nat
deriving DecidableEq, Repr

/-- The manufacturer in a slot, if it is in use. -/
def Slot.mfg (s : Slot) : Option Mfg :=
  match s.store with
  | none => none
  | some c => some ⟨cstr s.name, s.nid, c⟩

/-- The registered manufacturers, in order. -/
def registered (s : Srv) : List Mfg := ((s.mfgs.getD []).filterMap Slot.mfg)

theorem nextFree_spec (l : List Slot) :
    match nextFree l with
    | none => ∀ s ∈ l, s.store ≠ none
    | some i => i < l.length ∧ (∃ s, l[i]? = some s ∧ s.store = none) ∧
        ∀ j s, j < i → l[j]? = some s → s.store ≠ none := by
  induction l with
  | nil => simp [nextFree]
  | cons s l ih =>
    unfold nextFree
    by_cases h : s.store = none
    · rw [if_pos h]
      exact ⟨by simp, ⟨s, by simp, h⟩, by intro j t hj; omega⟩
    · rw [if_neg h]
      cases hn : nextFree l with
      | none =>
        rw [hn] at ih
        simp only [Option.map_none]
        intro t ht
        rcases List.mem_cons.1 ht with rfl | ht
        · exact h
        · exact ih t ht
      | some i =>
        rw [hn] at ih
        obtain ⟨h1, ⟨t, h2, h3⟩, h4⟩ := ih
        simp only [Option.map_some]
        refine ⟨by simp; omega, ⟨t, by simpa using h2, h3⟩, ?_⟩
        intro j u hj hu
        cases j with
        | zero => simp at hu; subst hu; exact h
        | succ j => simp at hu; exact h4 j u (by omega) hu

/-- The slots in use are the first ones. -/
def Prefixed (l : List Slot) : Prop :=
  ∃ a b, l = a ++ b ∧ (∀ s ∈ a, s.store ≠ none) ∧ (∀ s ∈ b, s.store = none)

theorem filterMap_none (b : List Slot) (h : ∀ s ∈ b, s.store = none) :
    b.filterMap Slot.mfg = [] := by
  rw [List.filterMap_eq_nil_iff]
  intro s hs
  simp [Slot.mfg, h s hs]

theorem filterMap_some_length (a : List Slot) (h : ∀ s ∈ a, s.store ≠ none) :
    (a.filterMap Slot.mfg).length = a.length := by
  induction a with
  | nil => rfl
  | cons s a ih =>
    have h1 := h s (by simp)
    cases hs : s.store with
    | none => exact absurd hs h1
    | some c =>
      rw [List.filterMap_cons_some (b := ⟨cstr s.name, s.nid, c⟩) (by simp [Slot.mfg, hs])]
      simp [ih (fun t ht => h t (by simp [ht]))]

theorem nextFree_split (a b : List Slot) (s : Slot) (h : ∀ t ∈ a, t.store ≠ none)
    (hs : s.store = none) : nextFree (a ++ s :: b) = some a.length := by
  induction a with
  | nil => simp [nextFree, hs]
  | cons t a ih =>
    have h1 := h t (by simp)
    have := ih (fun u hu => h u (by simp [hu]))
    simp only [List.cons_append, nextFree, if_neg h1, this, Option.map_some, List.length_cons]

theorem nextFree_full (a : List Slot) (h : ∀ t ∈ a, t.store ≠ none) : nextFree a = none := by
  induction a with
  | nil => rfl
  | cons t a ih =>
    simp only [nextFree, if_neg (h t (by simp)), ih (fun u hu => h u (by simp [hu])), Option.map_none]

/-- What loading a manufacturer does to a well-formed list. -/
theorem loadMfg_spec (lib : Lib) (a b : List Slot) (n : List Nat) (i : Int) (c : List Nat)
    (x y : Bool) (ha : ∀ s ∈ a, s.store ≠ none) (hb : ∀ s ∈ b, s.store = none) :
    (b = [] → loadMfg lib (a ++ b) n i c x y = (.none, a ++ b)) ∧
    (∀ s0 b', b = s0 :: b' →
      ∃ nm, nm = strncpyS s0.name 255 n ∧
      ((∃ st, lib.loadStore c = some st ∧ x = true ∧ y = true ∧
        loadMfg lib (a ++ b) n i c x y = (.none, a ++ ⟨nm, i, some st⟩ :: b')) ∨
       ((loadMfg lib (a ++ b) n i c x y).1 ≠ .none ∧
        (loadMfg lib (a ++ b) n i c x y).2 = a ++ ⟨nm, i, none⟩ :: b'))) := by
  constructor
  · intro h
    subst h
    have : nextFree (a ++ []) = none := by rw [List.append_nil]; exact nextFree_full a ha
    simp only [loadMfg, this]
  · intro s0 b' h
    subst h
    have hn := nextFree_split a b' s0 ha (hb s0 (by simp))
    refine ⟨_, rfl, ?_⟩
    have hg : ((a ++ s0 :: b')[a.length]?) = some s0 := by simp
    have hset : ∀ z : Slot, (a ++ s0 :: b').set a.length z = a ++ z :: b' := by
      intro z; simp
    simp only [loadMfg, hn, hg, Option.getD_some, hset]
    cases x with
    | false => right; simp
    | true =>
      simp only [Bool.not_true, Bool.false_eq_true, if_false]
      cases hl : lib.loadStore c with
      | none => right; simp
      | some st =>
        cases y with
        | false => right; simp
        | true => left; refine ⟨st, ?_⟩; simp

/-- State invariant: no list, or four slots with those in use first. -/
def ListOk (s : Srv) : Prop := ∀ l, s.mfgs = some l → l.length = 4 ∧ Prefixed l

theorem emptyList_ok : emptyList.length = 4 ∧ Prefixed emptyList := by
  refine ⟨by simp [emptyList], [], emptyList, rfl, by simp, ?_⟩
  intro s hs
  rw [emptyList, List.mem_replicate] at hs
  rw [hs.2]

theorem loadMfg_ok (lib : Lib) (l : List Slot) (n : List Nat) (i : Int) (c : List Nat)
    (x y : Bool) (h : l.length = 4 ∧ Prefixed l) :
    (loadMfg lib l n i c x y).2.length = 4 ∧ Prefixed (loadMfg lib l n i c x y).2 := by
  obtain ⟨hl, a, b, rfl, ha, hb⟩ := h
  obtain ⟨s1, s2⟩ := loadMfg_spec lib a b n i c x y ha hb
  cases b with
  | nil =>
    rw [s1 rfl]
    exact ⟨hl, a, [], rfl, ha, by simp⟩
  | cons s0 b' =>
    obtain ⟨nm, _, h | h⟩ := s2 s0 b' rfl
    · obtain ⟨st, _, _, _, e⟩ := h
      rw [e]
      refine ⟨by simp at hl ⊢; exact hl, a ++ [⟨nm, i, some st⟩], b', by simp, ?_, ?_⟩
      · intro s hs
        rcases List.mem_append.1 hs with hs | hs
        · exact ha s hs
        · simp at hs; subst hs; simp
      · exact fun s hs => hb s (by simp [hs])
    · rw [h.2]
      refine ⟨by simp at hl ⊢; exact hl, a, ⟨nm, i, none⟩ :: b', rfl, ha, ?_⟩
      intro s hs
      rcases List.mem_cons.1 hs with rfl | hs
      · rfl
      · exact hb s (by simp [hs])

theorem listOk_step (lib : Lib) (s : Srv) (op : SrvOp) (h : ListOk s) : ListOk (step lib s op).2 := by
  cases op with
  | addMfg n i c a b d =>
    simp only [step, addMfg]
    split
    · split
      · exact h
      · split
        · exact h
        · split
          · split
            · exact h
            · intro l hl
              simp at hl
              rw [← hl]
              exact loadMfg_ok _ _ _ _ _ _ _ emptyList_ok
          · rename_i l0 hl0
            intro l hl
            simp at hl
            rw [← hl]
            exact loadMfg_ok _ _ _ _ _ _ _ (h l0 hl0)
    · exact h
  | initCsrattrs t a =>
    obtain ⟨x, y, e⟩ := initCsrattrs_keeps lib s t a
    simp only [step]; rw [e]; exact h
  | enableEca n p c =>
    obtain ⟨w, x, y, z, e⟩ := enableEca_keeps s n p c
    simp only [step]; rw [e]; exact h
  | disableEca =>
    simp only [step, disableEca]
    split
    · exact h
    · intro l hl; simp at hl
  | _ =>
    simp only [step, setAuthMode, setRetry, setBrskiRetry, setReadTimeout, setDtlsTimeout,
      setDtlsMtu, setSessionMax, initReqArray, coapStart]
    repeat' split
    all_goals exact h

theorem listOk_run (lib : Lib) (ops : List SrvOp) : ListOk (run lib ops) := by
  have key : ∀ (ops : List SrvOp) (s : Srv), ListOk s → ListOk (runFrom lib s ops) := by
    intro ops
    induction ops with
    | nil => intro s h; exact h
    | cons op ops ih => intro s h; exact ih _ (listOk_step lib s op h)
  exact key ops _ (by intro l hl; simp [Srv.init] at hl)

theorem registered_prefixed (s : Srv) (l : List Slot) (hl : s.mfgs = some l) (h : ListOk s) :
    ∃ a b, l = a ++ b ∧ (∀ t ∈ a, t.store ≠ none) ∧ (∀ t ∈ b, t.store = none) ∧
      registered s = a.filterMap Slot.mfg ∧ (registered s).length = a.length ∧
      a.length + b.length = 4 := by
  obtain ⟨h4, a, b, rfl, ha, hb⟩ := h l hl
  have e : registered s = a.filterMap Slot.mfg := by
    simp only [registered, hl, Option.getD_some, List.filterMap_append, filterMap_none b hb,
      List.append_nil]
  refine ⟨a, b, rfl, ha, hb, e, by rw [e]; exact filterMap_some_length a ha, by simpa using h4⟩

/-- C32: never more than four manufacturers are registered. -/
theorem C32_at_most_four (lib : Lib) (ops : List SrvOp) : (registered (run lib ops)).length ≤ 4 := by
  cases hm : (run lib ops).mfgs with
  | none => simp [registered, hm]
  | some l =>
    obtain ⟨a, b, _, _, _, _, h5, h6⟩ := registered_prefixed _ l hm (listOk_run lib ops)
    omega

/-- C32: how a registration call ends on a server whose Enhanced Certificate Authentication is
enabled, for every reachable state.  On any error, and on a full list, the registered
manufacturers are unchanged; otherwise the new one (its name cut after 255 characters) is added
behind the unchanged earlier ones. -/
theorem C32_registration (lib : Lib) (ops : List SrvOp) (name certs : List Nat) (nid : Int)
    (a b d : Bool) (hz : NoNul name) :
    let s := run lib ops
    let r := step lib s (.addMfg (some name) nid (some certs) a b d)
    (r.1 ≠ .none → registered r.2 = registered s) ∧
    (r.1 = .none → (registered s).length = 4 → registered r.2 = registered s) ∧
    (r.1 = .none → (registered s).length < 4 →
      ∃ st, lib.loadStore certs = some st ∧
        registered r.2 = registered s ++ [⟨name.take 255, nid, st⟩]) := by
  intro s r
  have hok : ListOk s := listOk_run lib ops
  have main : ∀ (l : List Slot) (s' : Srv), l.length = 4 ∧ Prefixed l →
      s'.mfgs = some (loadMfg lib l name nid certs b d).2 →
      l.filterMap Slot.mfg = registered s →
      ((loadMfg lib l name nid certs b d).1 ≠ .none → registered s' = registered s) ∧
      ((loadMfg lib l name nid certs b d).1 = .none → (registered s).length = 4 →
        registered s' = registered s) ∧
      ((loadMfg lib l name nid certs b d).1 = .none → (registered s).length < 4 →
        ∃ st, lib.loadStore certs = some st ∧
          registered s' = registered s ++ [⟨name.take 255, nid, st⟩]) := by
    intro l s' hl hs' hreg
    obtain ⟨h4, p, q, rfl, hp, hq⟩ := hl
    obtain ⟨s1, s2⟩ := loadMfg_spec lib p q name nid certs b d hp hq
    have hr : registered s = p.filterMap Slot.mfg := by
      rw [← hreg, List.filterMap_append, filterMap_none q hq, List.append_nil]
    have hlen : (registered s).length = p.length := by rw [hr]; exact filterMap_some_length p hp
    have hreg' : registered s' = (loadMfg lib (p ++ q) name nid certs b d).2.filterMap Slot.mfg := by
      simp only [registered, hs', Option.getD_some]
    cases q with
    | nil =>
      have e := s1 rfl
      have : registered s' = registered s := by rw [hreg', e, ← hreg]
      refine ⟨fun _ => this, fun _ _ => this, ?_⟩
      intro _ hlt
      simp at h4
      omega
    | cons s0 q' =>
      have hq' : ∀ t ∈ q', t.store = none := fun t ht => hq t (by simp [ht])
      obtain ⟨nm, hnm, h | h⟩ := s2 s0 q' rfl
      · obtain ⟨st, h1, _, _, e⟩ := h
        have hfin : registered s' = registered s ++ [⟨name.take 255, nid, st⟩] := by
          rw [hreg', e, hr]
          simp only [List.filterMap_append]
          rw [List.filterMap_cons_some (b := ⟨name.take 255, nid, st⟩)
            (by simp only [Slot.mfg]; rw [hnm, strncpyS_cstr _ _ hz]), filterMap_none q' hq']
        refine ⟨?_, ?_, ?_⟩
        · intro hne; rw [e] at hne; exact absurd rfl hne
        · intro _ hfull
          simp at h4
          omega
        · intro _ _; exact ⟨st, h1, hfin⟩
      · have hsame : registered s' = registered s := by
          rw [hreg', h.2, hr, List.filterMap_append]
          rw [filterMap_none (⟨nm, nid, none⟩ :: q') (by
            intro t ht
            rcases List.mem_cons.1 ht with rfl | ht
            · rfl
            · exact hq' t ht), List.append_nil]
        exact ⟨fun _ => hsame, fun hn => absurd hn h.1, fun hn => absurd hn h.1⟩
  have hnone : s.mfgs = none → registered s = [] := by intro h; simp [registered, h]
  have hsel : r = addMfg lib s (some name) nid (some certs) a b d := rfl
  by_cases hc : certs.length = 0
  · have e : r = (.invalidParameters, s) := by rw [hsel]; simp only [addMfg, if_pos hc]
    rw [e]
    exact ⟨fun _ => rfl, fun h => by simp at h, fun h => by simp at h⟩
  · by_cases he : s.eca = true
    · cases hm : s.mfgs with
      | none =>
        cases a with
        | false =>
          have e : r = (.malloc, s) := by
            rw [hsel]
            simp only [addMfg, if_neg hc, he, hm, Bool.not_true, Bool.false_eq_true, if_false,
              Bool.not_false, if_true]
          rw [e]
          exact ⟨fun _ => rfl, fun h => by simp at h, fun h => by simp at h⟩
        | true =>
          have e : r = ((loadMfg lib emptyList name nid certs b d).1,
              { s with mfgs := some (loadMfg lib emptyList name nid certs b d).2 }) := by
            rw [hsel]
            simp only [addMfg, if_neg hc, he, hm, Bool.not_true, Bool.false_eq_true, if_false]
          rw [e]
          refine main emptyList _ emptyList_ok rfl ?_
          rw [hnone hm]
          exact filterMap_none _ (by
            intro t ht
            rw [emptyList, List.mem_replicate] at ht
            rw [ht.2])
      | some l =>
        have e : r = ((loadMfg lib l name nid certs b d).1,
            { s with mfgs := some (loadMfg lib l name nid certs b d).2 }) := by
          rw [hsel]
          simp only [addMfg, if_neg hc, he, hm, Bool.not_true, Bool.false_eq_true, if_false]
        rw [e]
        exact main l _ (hok l hm) rfl (by simp [registered, hm])
    · have e : r = (.invalidParameters, s) := by
        rw [hsel]
        simp only [addMfg, if_neg hc, he, Bool.not_false, if_true]
      rw [e]
      exact ⟨fun _ => rfl, fun h => by simp at h, fun h => by simp at h⟩

example : registered (run exLib [.enableEca 13 none 1,
      .addMfg (some [97, 99, 109, 101]) 105 (some [80, 69, 77]) true true true,
      .addMfg (some [111, 116, 104, 101, 114]) 13 (some [80, 69, 77, 49]) true true true])
    = [⟨[97, 99, 109, 101], 105, 3⟩, ⟨[111, 116, 104, 101, 114], 13, 4⟩] := by decide +kernel

/-- C32 is false as stated: with four manufacturers registered the call for a fifth one
reports success and registers nothing. -/
theorem C32_full_list_false :
    let s := run exLib ([.enableEca 13 none 1] ++
      List.replicate 4 (.addMfg (some [97, 99, 109, 101]) 105 (some [80, 69, 77]) true true true))
    let r := step exLib s (.addMfg (some [102, 105, 102, 116, 104]) 105 (some [80, 69, 77]) true true true)
    r.1 = .none ∧ r.2 = s ∧ ∀ m ∈ registered r.2, m.name ≠ [102, 105, 102, 116, 104] := by decide +kernel

/-- C32: nothing but disabling Enhanced Certificate Authentication removes or changes a
registered manufacturer. -/
theorem C32_only_disable_removes (lib : Lib) (ops : List SrvOp) (op : SrvOp)
    (hop : op ≠ .disableEca) (hname : ∀ n i c a b d, op = .addMfg (some n) i c a b d → NoNul n) :
    ∃ more, registered (step lib (run lib ops) op).2 = registered (run lib ops) ++ more := by
  cases op with
  | disableEca => exact absurd rfl hop
  | addMfg n i c a b d =>
    cases n with
    | none =>
      exact ⟨[], by simp [step, addMfg]⟩
    | some n =>
      cases c with
      | none => exact ⟨[], by simp [step, addMfg]⟩
      | some c =>
        obtain ⟨h1, h2, h3⟩ := C32_registration lib ops n c i a b d (hname n i _ a b d rfl)
        by_cases hr : (step lib (run lib ops) (.addMfg (some n) i (some c) a b d)).1 = .none
        · have h4 := C32_at_most_four lib ops
          rcases Nat.lt_or_ge (registered (run lib ops)).length 4 with hlt | hge
          · obtain ⟨st, _, e⟩ := h3 hr hlt
            exact ⟨_, e⟩
          · exact ⟨[], by rw [List.append_nil]; exact h2 hr (by omega)⟩
        · exact ⟨[], by rw [List.append_nil]; exact h1 hr⟩
  | initCsrattrs t a =>
    obtain ⟨x, y, e⟩ := initCsrattrs_keeps lib (run lib ops) t a
    refine ⟨[], ?_⟩
    simp only [step]; rw [e, List.append_nil]; rfl
  | enableEca n p c =>
    obtain ⟨w, x, y, z, e⟩ := enableEca_keeps (run lib ops) n p c
    refine ⟨[], ?_⟩
    simp only [step]; rw [e, List.append_nil]; rfl
  | _ =>
    refine ⟨[], ?_⟩
    rw [List.append_nil]
    simp only [step, setAuthMode, setRetry, setBrskiRetry, setReadTimeout, setDtlsTimeout,
      setDtlsMtu, setSessionMax, initReqArray, coapStart]
    repeat' split
    all_goals rfl

/-! ## C31: rejected reconfiguration -/

/-- The Enhanced Certificate Authentication settings that are used for requests: none while
the mode is off. -/
def ecaInForce (s : Srv) : Option (Int × List Nat × Int × List Mfg) :=
  if s.eca then some (s.ecaNid, cstr s.ecaPwd, s.ecaCheck, registered s) else none

/-- C31 for `est_server_enable_enhanced_cert_auth`: a call that returns an error leaves the
settings in force and everything else as they were (only stored values that are not used
change). -/
theorem C31_eca_rejected (s : Srv) (nid : Int) (pwd : Option (List Nat)) (check : Int)
    (h : (enableEca s nid pwd check).1 ≠ .none) :
    ecaInForce (enableEca s nid pwd check).2 = ecaInForce s ∧
    ∃ w x, (enableEca s nid pwd check).2 = { s with ecaNid := w, ecaPwd := x } ∧
      (s.eca = true → w = s.ecaNid ∧ x = s.ecaPwd) := by
  unfold enableEca at h ⊢
  by_cases he : s.eca = true
  · rw [if_pos he]
    exact ⟨rfl, s.ecaNid, s.ecaPwd, rfl, fun _ => ⟨rfl, rfl⟩⟩
  · rw [if_neg he] at h
    rw [if_neg he]
    simp only at h ⊢
    split at h
    · rename_i hp
      rw [if_pos hp]
      exact ⟨by simp [ecaInForce, he], nid, s.ecaPwd, rfl, fun q => absurd q he⟩
    · rename_i hp
      rw [if_neg hp]
      split at h
      · exact absurd rfl h
      · rename_i hc
        rw [if_neg hc]
        exact ⟨by simp [ecaInForce, he], nid, _, rfl, fun q => absurd q he⟩

/-- C31: and a call that succeeds puts exactly the given values in force. -/
theorem C31_eca_accepted (s : Srv) (nid : Int) (pwd : Option (List Nat)) (check : Int)
    (hz : ∀ p, pwd = some p → NoNul p) (hs : Terminated s.ecaPwd)
    (h : (enableEca s nid pwd check).1 = .none) :
    ecaInForce (enableEca s nid pwd check).2
      = some (nid, pwd.getD [99, 105, 115, 99, 111], check, registered s) ∧ (check = 0 ∨ check = 1) := by
  unfold enableEca at h ⊢
  by_cases he : s.eca = true
  · simp [he] at h
  · rw [if_neg he] at h
    rw [if_neg he]
    simp only at h ⊢
    split at h
    · cases h
    · rename_i hp
      rw [if_neg hp]
      split at h
      · rename_i hc
        rw [if_pos hc]
        have hnz : NoNul (pwd.getD defaultPwd) := by
          cases pwd with
          | none => unfold NoNul defaultPwd; decide
          | some p => exact hz p rfl
        have := strcpyS_cstr s.ecaPwd (pwd.getD defaultPwd) 256 hs (Or.inr rfl) (by omega) hnz
        refine ⟨?_, by omega⟩
        simp only [ecaInForce, if_true, this]
        rfl
      · cases h

example : (enableEca Srv.init 13 (some [115, 101, 99, 114, 101, 116]) 2).1 = .invalidParameters ∧
    (enableEca Srv.init 13 (some [115, 101, 99, 114, 101, 116]) 1).1 = .none := by decide +kernel

/-- C31 for `est_server_init_csrattrs` is false as stated: a refused call throws the
configured attributes away. -/
theorem C31_csrattrs_lost_false :
    let s := { Srv.init with csrattrs := some [77, 65, 115, 71, 67, 83, 113, 71, 83, 73, 98, 51, 68, 81, 69, 74, 66, 119, 61, 61] }
    (step exLib s (.initCsrattrs (some [77, 65, 115]) true)).1 = .invalidParameters ∧
    (step exLib s (.initCsrattrs (some [77, 65, 115]) true)).2.csrattrs = none := by decide

/-- C31: precisely, any `est_server_init_csrattrs` call that fails leaves the server without
configured attributes, and touches nothing else but the flag for the attributes in use. -/
theorem C31_csrattrs_rejected_partial (lib : Lib) (s : Srv) (t : Option (List Nat)) (a : Bool)
    (h : (step lib s (.initCsrattrs t a)).1 ≠ .none) :
    ∃ p, (step lib s (.initCsrattrs t a)).2 = { s with csrattrs := none, popPresent := p } := by
  simp only [step, initCsrattrs] at h ⊢
  split at h
  · exact absurd rfl h
  · rename_i t' 
    split at h
    · rename_i h1; rw [if_pos h1]; exact ⟨s.popPresent, rfl⟩
    · rename_i h1
      rw [if_neg h1]
      cases ha : lib.attrs t' with
      | none => exact ⟨false, rfl⟩
      | some present =>
        simp only [ha] at h ⊢
        cases hp : s.pop
        · cases a <;> simp [hp] at h ⊢
        · cases present
          · cases hq : lib.addPop t' with
            | none => simp
            | some t2 => cases a <;> simp [hp, hq] at h ⊢
          · cases a <;> simp [hp] at h ⊢

example : (step { exLib with attrs := fun _ => none } Srv.init
    (.initCsrattrs (some [77, 65, 115, 71, 67, 83, 113, 71]) true)).1 = .invalidParameters := by decide

/-- C31: what a successful call stores: the given text if challengePassword is in it or proof
of possession is off, otherwise the text extended by it. -/
theorem C31_csrattrs_accepted (lib : Lib) (s : Srv) (t : List Nat) (a : Bool)
    (h : (step lib s (.initCsrattrs (some t) a)).1 = .none) :
    ∃ present t', lib.attrs t = some present ∧
      (step lib s (.initCsrattrs (some t) a)).2.csrattrs = some t' ∧
      ((s.pop = false ∨ present = true) → t' = t) ∧
      (s.pop = true → present = false → lib.addPop t = some t') := by
  simp only [step, initCsrattrs] at h ⊢
  split at h
  · cases h
  · rename_i h1
    rw [if_neg h1]
    cases ha : lib.attrs t with
    | none => simp [ha] at h
    | some present =>
      simp only [ha] at h ⊢
      cases hp : s.pop
      · cases a
        · simp [hp] at h
        · exact ⟨present, t, rfl, by simp, fun _ => rfl, fun q => by simp at q⟩
      · cases present
        · cases hq : lib.addPop t with
          | none => simp [hp, hq] at h
          | some t2 =>
            cases a
            · simp [hp, hq] at h
            · exact ⟨false, t2, rfl, by simp, by simp, fun _ _ => rfl⟩
        · cases a
          · simp [hp] at h
          · exact ⟨true, t, rfl, by simp, fun _ => rfl, by simp⟩

example : (step exLib Srv.init (.initCsrattrs (some [77, 65, 115, 71, 67, 83, 113, 71]) true)).2.csrattrs
    = some [77, 65, 115, 71, 67, 83, 113, 71] := by decide

/-- C31: with NULL the attributes are cleared. -/
theorem C31_csrattrs_cleared (lib : Lib) (s : Srv) (a : Bool) :
    step lib s (.initCsrattrs none a) = (.none, { s with csrattrs := none }) := rfl

/-- Parameters for the client examples. -/
def exC : CLib :=
  { uriparser := true, brski := true, libcurl := true, uriOk := fun _ => true,
    certOk := fun _ => true, keyOk := fun _ => true, fits := fun c k => c == k }

/-- C31 for `est_client_set_server`, the part that holds: a call refused because of the server
name or the port changes nothing; a call refused because of the path segment keeps the path
segment. -/
theorem C31_set_server_partial (lib : CLib) (c c' : Cl) (n : Option (List Nat)) (p : Int)
    (g : Option (List Nat)) (e : EstErr) (h : setServer lib c n p g = some (e, c'))
    (he : e ≠ .none) :
    c'.seg = c.seg ∧ ((e = .invalidServerName ∨ e = .invalidPortNum) → c' = c) := by
  unfold setServer at h
  split at h
  · simp at h; obtain ⟨rfl, rfl⟩ := h; exact ⟨rfl, fun _ => rfl⟩
  · split at h
    · simp at h; obtain ⟨rfl, rfl⟩ := h; exact ⟨rfl, fun _ => rfl⟩
    · split at h
      · simp at h; obtain ⟨rfl, rfl⟩ := h; exact ⟨rfl, fun _ => rfl⟩
      · simp only at h
        split at h
        · simp at h; exact absurd h.1.symm he
        · split at h
          · split at h
            · simp at h; obtain ⟨rfl, rfl⟩ := h; exact ⟨rfl, by simp⟩
            · split at h
              · simp at h; obtain ⟨rfl, rfl⟩ := h; exact ⟨rfl, by simp⟩
              · split at h
                · cases h
                · simp at h; obtain ⟨rfl, rfl⟩ := h; exact ⟨rfl, by simp⟩
                · simp at h; exact absurd h.1.symm he
          · simp at h; obtain ⟨rfl, rfl⟩ := h; exact ⟨rfl, by simp⟩

example : setServer exC Cl.init (some [99, 97, 46, 101, 120, 97, 109, 112, 108, 101]) 0 none = some (.invalidPortNum, Cl.init) := by
  decide +kernel

/-- C31 is false of `est_client_set_server`: a call refused because of its path segment has
already replaced the server and the port. -/
theorem C31_set_server_false :
    (setServer exC { Cl.init with server := strcpyS zeros 255 [103, 111, 111, 100], port := 8085 }
      (some [111, 116, 104, 101, 114]) 99 (some [97, 47, 98])).map (fun r => (r.1, cstr r.2.server, r.2.port))
      = some (.httpInvalidPathSegment, [111, 116, 104, 101, 114], 99) := by decide +kernel

/-- C31 for `est_client_set_auth`, the part that holds: a call that is refused because the user
id or the password is missing or the user id is too long changes nothing. -/
theorem C31_set_auth_partial (lib : CLib) (c : Cl) (u p : Option (List Nat)) (x k : Option Nat)
    (h : (u = none ∧ p ≠ none) ∨ (u ≠ none ∧ p = none) ∨ ∃ t, u = some t ∧ 255 < t.length) :
    setAuth lib c u p x k = (.invalidParameters, c) := by
  have e : setUidPw c u p = (.invalidParameters, c) := by
    rcases h with ⟨rfl, hp⟩ | ⟨hu, rfl⟩ | ⟨t, rfl, ht⟩
    · cases p with
      | none => exact absurd rfl hp
      | some p => rfl
    · cases u with
      | none => exact absurd rfl hu
      | some u => rfl
    · cases p with
      | none => rfl
      | some p =>
        simp only [setUidPw]
        rw [if_pos (by omega)]
  simp only [setAuth, e]
  simp

example : setAuth exC Cl.init (some [98, 111, 98]) none none none = (.invalidParameters, Cl.init) := by
  decide +kernel

/-- C31 is false of `est_client_set_auth` (1): a password that is too long is refused after the
user id has been stored; the new user id is then used with the old password. -/
theorem C31_set_auth_mixed_false :
    let c := (setAuth exC Cl.init (some [97, 108, 105, 99, 101]) (some [112, 119, 65]) none none).2
    let r := setAuth exC c (some [98, 111, 98]) (some (List.replicate 256 120)) none none
    r.1 = .invalidParameters ∧ cstr r.2.userid = [98, 111, 98] ∧ cstr r.2.password = [112, 119, 65] := by
  decide +kernel

/-- C31 is false of `est_client_set_auth` (2): a certificate whose key does not match is
refused, but it has replaced the one in use. -/
theorem C31_set_auth_key_false :
    let c := (setAuth exC Cl.init none none (some 1) (some 1)).2
    let r := setAuth exC c none none (some 2) (some 3)
    r.1 = .clientInvalidKey ∧ c.tlsCert = some 1 ∧ r.2.tlsCert = some 2 ∧ r.2.cert = some 2 ∧
    r.2.key = some 3 := by
  decide +kernel

/-! ## C69: path segments from the client's configuration to the server -/

theorem takeWhile_pre (a b : List Nat) (h : ∀ c ∈ a, pathEnd c = false) :
    (a ++ b).takeWhile (fun c => !pathEnd c)
      = a ++ b.takeWhile (fun c => !pathEnd c) := by
  induction a with
  | nil => rfl
  | cons x a ih =>
    rw [List.cons_append, List.takeWhile_cons_of_pos (by simp [h x (by simp)]),
      ih (fun c hc => h c (by simp [hc])), List.cons_append]

theorem splitSlash_head (l : List Nat) :
    ∃ more, splitSlash l = l.takeWhile (· ≠ 47) :: more ∧ (more = [] ↔ 47 ∉ l) := by
  induction l with
  | nil => exact ⟨[], rfl, by simp⟩
  | cons c l ih =>
    obtain ⟨more, e, hm⟩ := ih
    unfold splitSlash
    by_cases hc : c = 47
    · subst hc
      refine ⟨splitSlash l, by simp, ?_⟩
      rw [e]; simp
    · rw [if_neg hc, e]
      refine ⟨more, by rw [List.takeWhile_cons_of_pos (by simpa using hc)], ?_⟩
      rw [hm]
      have : ¬ 47 = c := fun h => hc h.symm
      simp [this]

theorem uriSegments_seg (seg : List Nat) :
    uriSegments ([47, 46, 119, 101, 108, 108, 45, 107, 110, 111, 119, 110, 47, 101, 115, 116, 47] ++ seg) = [46, 119, 101, 108, 108, 45, 107, 110, 111, 119, 110] :: [101, 115, 116] ::
      splitSlash (seg.takeWhile (fun c => !pathEnd c)) := by
  have htw : ([47, 46, 119, 101, 108, 108, 45, 107, 110, 111, 119, 110, 47, 101, 115, 116, 47] ++ seg).takeWhile (fun c => !pathEnd c)
      = [47, 46, 119, 101, 108, 108, 45, 107, 110, 111, 119, 110, 47, 101, 115, 116, 47] ++ seg.takeWhile (fun c => !pathEnd c) :=
    takeWhile_pre _ _ (by decide)
  have e : [47, 46, 119, 101, 108, 108, 45, 107, 110, 111, 119, 110, 47, 101, 115, 116, 47] ++ seg.takeWhile (fun c => !pathEnd c)
      = 47 :: ([46, 119, 101, 108, 108, 45, 107, 110, 111, 119, 110] ++ 47 :: ([101, 115, 116] ++ 47 :: seg.takeWhile (fun c => !pathEnd c))) := by
    simp
  unfold uriSegments
  rw [htw, e]
  simp only [if_true]
  rw [if_neg (by simp), Verif.EstUri.splitSlash_append _ _ (by decide),
    Verif.EstUri.splitSlash_append _ _ (by decide)]

theorem textFrom_seg (seg : List Nat) :
    textFrom 2 (([47, 46, 119, 101, 108, 108, 45, 107, 110, 111, 119, 110, 47, 101, 115, 116, 47] ++ seg).drop 1) = seg := by
  have e : ([47, 46, 119, 101, 108, 108, 45, 107, 110, 111, 119, 110, 47, 101, 115, 116, 47] ++ seg).drop 1 = [46, 119, 101, 108, 108, 45, 107, 110, 111, 119, 110] ++ 47 :: ([101, 115, 116] ++ 47 :: seg) := by
    simp
  rw [e, Verif.EstUri.textFrom_succ 1 _ _ (by decide), Verif.EstUri.textFrom_succ 0 _ _ (by decide)]
  rfl

theorem takeWhile_length_eq (p : Nat → Bool) (l : List Nat) (h : l.drop (l.takeWhile p).length = []) :
    l.takeWhile p = l := by
  have h1 : l.length ≤ (l.takeWhile p).length := by simpa using h
  have h2 := List.takeWhile_append_dropWhile (p := p) (l := l)
  have h3 : (l.dropWhile p) = [] := by
    apply List.eq_nil_of_length_eq_zero
    have := congrArg List.length h2
    rw [List.length_append] at this
    omega
  rw [h3, List.append_nil] at h2
  exact h2

theorem takeWhile_all (p : Nat → Bool) (l : List Nat) (h : ∀ c ∈ l, p c = true) :
    l.takeWhile p = l := by
  induction l with
  | nil => rfl
  | cons c l ih =>
    rw [List.takeWhile_cons_of_pos (h c (by simp)), ih (fun d hd => h d (by simp [hd]))]

/-- C69: `est_parse_path_seg` never follows a NULL pointer, and accepts exactly the texts that
uriparser accepts, that are one segment and not the name of an operation. -/
theorem C69_accepted_iff (lib : CLib) (seg : List Nat) (h0 : seg ≠ []) :
    ∃ b, parsePathSeg lib seg = some b ∧
      (b = true ↔ lib.uriOk ([47, 46, 119, 101, 108, 108, 45, 107, 110, 111, 119, 110, 47, 101, 115, 116, 47] ++ seg) = true ∧ SegText seg ∧
        ∀ o, (isBrski o = true → lib.brski = true) → ¬ SameFold seg (opName o)) := by
  have hpo := Verif.EstUri.parseOperation_iff lib.brski seg h0
  have hnone : parseOperation lib.brski seg = none ↔
      ∀ o, (isBrski o = true → lib.brski = true) → ¬ SameFold seg (opName o) := by
    constructor
    · intro h o ho hs
      have := (hpo o).2 ⟨hs, ho⟩
      rw [h] at this; cases this
    · intro h
      cases hc : parseOperation lib.brski seg with
      | none => rfl
      | some o =>
        obtain ⟨a, b⟩ := (hpo o).1 hc
        exact absurd a (h o b)
  rw [← hnone]
  unfold parsePathSeg
  simp only
  by_cases hu : lib.uriOk ([47, 46, 119, 101, 108, 108, 45, 107, 110, 111, 119, 110, 47, 101, 115, 116, 47] ++ seg) = true
  · rw [hu]
    simp only [Bool.not_true, Bool.false_eq_true, if_false, true_and]
    rw [uriSegments_seg, textFrom_seg]
    obtain ⟨more, e, hm⟩ := splitSlash_head (seg.takeWhile (fun c => !pathEnd c))
    rw [e]
    simp only
    generalize hs : (seg.takeWhile (fun c => !pathEnd c)).takeWhile (· ≠ 47) = s at *
    by_cases c1 : s = []
    · rw [if_pos c1]
      refine ⟨false, rfl, by simp, ?_⟩
      rintro ⟨⟨t1, t2, t3⟩, _⟩
      exfalso
      have a1 : seg.takeWhile (fun c => !pathEnd c) = seg := by
        apply takeWhile_all
        intro c hc
        simp only [pathEnd, Bool.not_eq_true', Bool.or_eq_false_iff, beq_eq_false_iff_ne]
        exact ⟨fun h => t2 (h ▸ hc), fun h => t3 (h ▸ hc)⟩
      have a2 : seg.takeWhile (· ≠ 47) = seg := by
        apply takeWhile_all
        intro c hc
        simp only [ne_eq, decide_eq_true_eq]
        exact fun h => t1 (h ▸ hc)
      rw [a1, a2] at hs
      exact h0 (hs.trans c1)
    · rw [if_neg c1]
      by_cases c2 : parseOperation lib.brski seg = none
      · rw [if_neg (by simp [c2])]
        by_cases c3 : more ≠ [] ∨ seg.drop s.length ≠ []
        · rw [if_pos c3]
          refine ⟨false, rfl, by simp, ?_⟩
          rintro ⟨⟨t1, t2, t3⟩, _⟩
          exfalso
          have a1 : seg.takeWhile (fun c => !pathEnd c) = seg := by
            apply takeWhile_all
            intro c hc
            simp only [pathEnd, Bool.not_eq_true', Bool.or_eq_false_iff, beq_eq_false_iff_ne]
            exact ⟨fun h => t2 (h ▸ hc), fun h => t3 (h ▸ hc)⟩
          have a2 : seg.takeWhile (· ≠ 47) = seg := by
            apply takeWhile_all
            intro c hc
            simp only [ne_eq, decide_eq_true_eq]
            exact fun h => t1 (h ▸ hc)
          rw [a1] at hm
          rw [a1, a2] at hs
          rcases c3 with c3 | c3
          · exact c3 (hm.2 t1)
          · exact c3 (by rw [← hs]; simp)
        · rw [if_neg c3]
          refine ⟨true, rfl, fun _ => ⟨?_, c2⟩, fun _ => rfl⟩
          have m1 : more = [] := by
            cases more with
            | nil => rfl
            | cons a b => exact absurd (Or.inl (by simp)) c3
          have m2 : seg.drop s.length = [] := by
            cases hd : seg.drop s.length with
            | nil => rfl
            | cons a b => exact absurd (Or.inr (by rw [hd]; simp)) c3
          have n1 := hm.1 m1
          have b1 : (seg.takeWhile (fun c => !pathEnd c)).takeWhile (· ≠ 47)
              = seg.takeWhile (fun c => !pathEnd c) := by
            apply takeWhile_all
            intro c hc
            simp only [ne_eq, decide_eq_true_eq]
            exact fun h => n1 (h ▸ hc)
          have b2 : seg.takeWhile (fun c => !pathEnd c) = seg := by
            apply takeWhile_length_eq
            rw [← b1, hs]; exact m2
          have n2 : ∀ c ∈ seg, pathEnd c = false := by
            intro c hc
            rw [← b2] at hc
            have := Verif.EstUri.mem_takeWhile_true hc
            simpa using this
          rw [b2] at n1
          refine ⟨n1, ?_, ?_⟩
          · intro h; have := n2 63 h; simp [pathEnd] at this
          · intro h; have := n2 35 h; simp [pathEnd] at this
      · rw [if_pos c2]
        exact ⟨false, rfl, by simp [c2]⟩
  · have hf : lib.uriOk ([47, 46, 119, 101, 108, 108, 45, 107, 110, 111, 119, 110, 47, 101, 115, 116, 47] ++ seg) = false := by
      cases hx : lib.uriOk ([47, 46, 119, 101, 108, 108, 45, 107, 110, 111, 119, 110, 47, 101, 115, 116, 47] ++ seg) with
      | false => rfl
      | true => exact absurd hx hu
    rw [hf]
    exact ⟨false, rfl, by simp⟩

example : parsePathSeg exC [108, 97, 98, 55] = some true ∧ parsePathSeg exC [67, 97, 67, 101, 114, 116, 115] = some false ∧
    parsePathSeg exC [97, 47, 98] = some false ∧ parsePathSeg exC [63, 120] = some false := by decide +kernel

/-- C69: a path segment that `est_client_set_server` accepts is understood by the server: the
path of every operation with that segment in it is parsed into this operation and this segment
(uriparser accepts the path; the server's build knows no operation the client's does not). -/
theorem C69_server_understands (lib : CLib) (c c' : Cl) (n : Option (List Nat)) (p : Int)
    (seg : List Nat) (h : setServer lib c n p (some seg) = some (.none, c'))
    (srvBrski : Bool) (hbr : srvBrski = true → lib.brski = true)
    (uriOk : List Nat → Bool) (after : List Nat) (op : Op)
    (hop : isBrski op = true → srvBrski = true)
    (hok : uriOk ([47, 46, 119, 101, 108, 108, 45, 107, 110, 111, 119, 110, 47, 101, 115, 116, 47] ++ seg ++ 47 :: opName op) = true) :
    c'.seg = some seg ∧
    parseUriLib srvBrski uriOk after ([47, 46, 119, 101, 108, 108, 45, 107, 110, 111, 119, 110, 47, 101, 115, 116, 47] ++ seg ++ 47 :: opName op)
      = .ok op (some seg) := by
  unfold setServer at h
  split at h
  · simp at h
  · split at h
    · simp at h
    · split at h
      · simp at h
      · simp only at h
        split at h
        · split at h
          · simp at h
          · rename_i h0
            split at h
            · simp at h
            · rename_i hlen
              split at h
              · cases h
              · simp at h
              · rename_i hps
                simp at h
                obtain ⟨b, hb, hiff⟩ := C69_accepted_iff lib seg h0
                rw [hps] at hb
                simp at hb
                subst hb
                obtain ⟨_, hseg, hno⟩ := hiff.1 rfl
                refine ⟨by rw [← h], ?_⟩
                have hnil : SegText [] := by simp [SegText]
                have hne : opName op ≠ [] := by cases op <;> decide
                have hp1 : parseOperation srvBrski (opName op) = some op :=
                  (Verif.EstUri.parseOperation_iff srvBrski (opName op) hne op).2 ⟨rfl, hop⟩
                have hp2 : parseOperation srvBrski seg = none := by
                  cases hc : parseOperation srvBrski seg with
                  | none => rfl
                  | some o =>
                    obtain ⟨a, b⟩ := (Verif.EstUri.parseOperation_iff srvBrski seg h0 o).1 hc
                    exact absurd a (hno o (fun q => hbr (b q)))
                have ev := Verif.EstUri.parseUriLib_eval srvBrski uriOk after seg (47 :: opName op)
                  [] [] hnil hnil hseg (by simp) (by simpa using hok)
                rw [if_neg (by omega), hp2] at ev
                simp only [hp1] at ev
                have e : [47, 46, 119, 101, 108, 108, 45, 107, 110, 111, 119, 110, 47, 101, 115, 116, 47] ++ seg ++ 47 :: opName op =
                    47 :: ([46, 119, 101, 108, 108, 45, 107, 110, 111, 119, 110] ++ []) ++ 47 :: ([101, 115, 116] ++ []) ++ 47 :: seg ++
                      47 :: opName op := by simp
                rw [e]
                exact ev
        · simp at h

example : (setServer exC Cl.init (some [99, 97]) 8085 (some [108, 97, 98, 55])).map (·.1) = some .none := by
  decide +kernel

/-! ## C70: the client's settings in force -/

/-- All character arrays of the context are terminated. -/
structure ArraysOk (c : Cl) : Prop where
  server : Terminated c.server
  userid : Terminated c.userid
  password : Terminated c.password
  pServer : Terminated c.pServer
  pUser : Terminated c.pUser
  pPassword : Terminated c.pPassword

/-- The ranges of the client's settings. -/
structure ClRange (c : Cl) : Prop where
  port : 0 ≤ c.port ∧ c.port ≤ 65535
  read : 1 ≤ c.readTimeout ∧ c.readTimeout ≤ 3600
  proto : 0 ≤ c.pProto ∧ c.pProto ≤ 7
  auth : c.pAuth ∈ [0, 1, 8, 9]
  digest : c.digest ∈ [64, 672, 673, 674, 675]
  seg : ∀ s, c.seg = some s → s ≠ [] ∧ s.length ≤ 128

theorem setProxyUser_arrays (c : Cl) (a : Nat) (u w : Option (List Nat)) (h : ArraysOk c) :
    ArraysOk (setProxyUser c a u w).2 := by
  obtain ⟨a1, a2, a3, a4, a5, a6⟩ := h
  unfold setProxyUser
  split
  · rename_i uu pp
    have b5 : min uu.length 257 ≤ 255 → Terminated (strcpyS c.pUser 256 uu) :=
      fun q => strcpyS_terminated c.pUser uu 256 a5 (Or.inr ⟨rfl, by omega⟩)
    have b6 : min pp.length 257 ≤ 255 → Terminated (strcpyS c.pPassword 256 pp) :=
      fun q => strcpyS_terminated c.pPassword pp 256 a6 (Or.inr ⟨rfl, by omega⟩)
    split
    · exact ⟨a1, a2, a3, a4, a5, a6⟩
    · split
      · exact ⟨a1, a2, a3, a4, a5, a6⟩
      · split
        · exact ⟨a1, a2, a3, a4, a5, a6⟩
        · split
          · exact ⟨a1, a2, a3, a4, b5 (by omega), a6⟩
          · split
            · exact ⟨a1, a2, a3, a4, b5 (by omega), a6⟩
            · exact ⟨a1, a2, a3, a4, b5 (by omega), b6 (by omega)⟩
  · exact ⟨a1, a2, a3, a4, a5, a6⟩

theorem setProxy_arrays (lib : CLib) (c : Cl) (pr : Int) (n : Option (List Nat)) (p a : Nat)
    (u w : Option (List Nat)) (h : ArraysOk c) : ArraysOk (setProxy lib c pr n p a u w).2 := by
  obtain ⟨a1, a2, a3, a4, a5, a6⟩ := h
  unfold setProxy
  split
  · exact ⟨a1, a2, a3, a4, a5, a6⟩
  · split
    · exact ⟨a1, a2, a3, a4, a5, a6⟩
    · rename_i nm
      split
      · exact ⟨a1, a2, a3, a4, a5, a6⟩
      · split
        · exact ⟨a1, a2, a3, a4, a5, a6⟩
        · have b4 := strcpyS_terminated c.pServer nm 256 a4 (Or.inr ⟨rfl, by omega⟩)
          unfold setProxyKind
          split
          · exact ⟨a1, a2, a3, b4, a5, a6⟩
          · split
            · exact ⟨a1, a2, a3, b4, a5, a6⟩
            · split
              · exact ⟨a1, a2, a3, b4, a5, a6⟩
              · exact setProxyUser_arrays _ a u w ⟨a1, a2, a3, b4, a5, a6⟩

theorem setProxyUser_range (c : Cl) (a : Nat) (u w : Option (List Nat)) (h : ClRange c) :
    ClRange (setProxyUser c a u w).2 := by
  obtain ⟨r1, r2, r3, r4, r5, r6⟩ := h
  unfold setProxyUser
  repeat' split
  all_goals exact ⟨r1, r2, r3, r4, r5, r6⟩

theorem setProxy_range (lib : CLib) (c : Cl) (pr : Int) (n : Option (List Nat)) (p a : Nat)
    (u w : Option (List Nat)) (h : ClRange c) : ClRange (setProxy lib c pr n p a u w).2 := by
  obtain ⟨r1, r2, r3, r4, r5, r6⟩ := h
  unfold setProxy
  split
  · exact ⟨r1, r2, r3, r4, r5, r6⟩
  · split
    · exact ⟨r1, r2, r3, r4, r5, r6⟩
    · split
      · exact ⟨r1, r2, r3, r4, r5, r6⟩
      · split
        · exact ⟨r1, r2, r3, r4, r5, r6⟩
        · unfold setProxyKind
          split
          · exact ⟨r1, r2, r3, r4, r5, r6⟩
          · split
            · exact ⟨r1, r2, r3, r4, r5, r6⟩
            · have q3 : 0 ≤ pr ∧ pr ≤ 7 := by omega
              split
              · exact ⟨r1, r2, q3, r4, r5, r6⟩
              · have q4 : a ∈ [0, 1, 8, 9] := by simp; omega
                exact setProxyUser_range _ a u w ⟨r1, r2, q3, q4, r5, r6⟩

theorem clOk_step (lib : CLib) (c : Cl) (op : ClOp) (r : EstErr × Cl) (h : ArraysOk c)
    (hr : ClRange c) (e : clStep lib c op = some r) : ArraysOk r.2 ∧ ClRange r.2 := by
  obtain ⟨a1, a2, a3, a4, a5, a6⟩ := h
  obtain ⟨r1, r2, r3, r4, r5, r6⟩ := hr
  have same : ArraysOk c ∧ ClRange c := ⟨⟨a1, a2, a3, a4, a5, a6⟩, ⟨r1, r2, r3, r4, r5, r6⟩⟩
  cases op with
  | setServer n p g =>
    simp only [clStep, setServer] at e
    split at e
    · simp at e; subst e; exact same
    · split at e
      · simp at e; subst e; exact same
      · rename_i nm hp
        split at e
        · simp at e; subst e; exact same
        · have b1 := strcpyS_terminated c.server nm 255 a1 (Or.inl rfl)
          have same' : ArraysOk { c with server := strcpyS c.server 255 nm, port := p } ∧
              ClRange { c with server := strcpyS c.server 255 nm, port := p } :=
            ⟨⟨b1, a2, a3, a4, a5, a6⟩, ⟨by simp only; omega, r2, r3, r4, r5, r6⟩⟩
          split at e
          · simp at e; subst e; exact same'
          · split at e
            · split at e
              · simp at e; subst e; exact same'
              · rename_i g0
                split at e
                · simp at e; subst e; exact same'
                · rename_i gl
                  split at e
                  · cases e
                  · simp at e; subst e; exact same'
                  · simp at e; subst e
                    refine ⟨⟨b1, a2, a3, a4, a5, a6⟩, ⟨by simp only; omega, r2, r3, r4, r5, ?_⟩⟩
                    intro s hs
                    simp at hs
                    subst hs
                    exact ⟨g0, by omega⟩
            · simp at e; subst e; exact same'
  | setAuth u p x k =>
    simp only [clStep, Option.some.injEq] at e
    subst e
    have one : ArraysOk (setUidPw c u p).2 ∧ ClRange (setUidPw c u p).2 := by
      unfold setUidPw
      split
      · exact same
      · exact same
      · exact same
      · split
        · exact same
        · rename_i uu pp _
          have b2 := strcpyS_terminated c.userid uu 255 a2 (Or.inl rfl)
          have b3 := strcpyS_terminated c.password pp 255 a3 (Or.inl rfl)
          simp only
          split
          · exact ⟨⟨a1, b2, a3, a4, a5, a6⟩, ⟨r1, r2, r3, r4, r5, r6⟩⟩
          · exact ⟨⟨a1, b2, b3, a4, a5, a6⟩, ⟨r1, r2, r3, r4, r5, r6⟩⟩
    obtain ⟨⟨a1, a2, a3, a4, a5, a6⟩, ⟨r1, r2, r3, r4, r5, r6⟩⟩ := one
    simp only [setAuth]
    split
    · exact ⟨⟨a1, a2, a3, a4, a5, a6⟩, ⟨r1, r2, r3, r4, r5, r6⟩⟩
    · split
      · simp only [setCertAndKey]
        repeat' split
        all_goals exact ⟨⟨a1, a2, a3, a4, a5, a6⟩, ⟨r1, r2, r3, r4, r5, r6⟩⟩
      · exact ⟨⟨a1, a2, a3, a4, a5, a6⟩, ⟨r1, r2, r3, r4, r5, r6⟩⟩
  | setProxy pr n p a u w =>
    simp only [clStep, Option.some.injEq] at e
    subst e
    exact ⟨setProxy_arrays lib c pr n p a u w same.1, setProxy_range lib c pr n p a u w same.2⟩
  | setReadTimeout v =>
    simp only [clStep, Option.some.injEq] at e
    subst e
    simp only [clReadTimeout]
    split
    · exact same
    · exact ⟨⟨a1, a2, a3, a4, a5, a6⟩, ⟨r1, by simp only; omega, r3, r4, r5, r6⟩⟩
  | setDigest n =>
    simp only [clStep, Option.some.injEq] at e
    subst e
    simp only [setDigest]
    split
    · exact ⟨⟨a1, a2, a3, a4, a5, a6⟩, ⟨r1, r2, r3, r4, by simp; omega, r6⟩⟩
    · exact same
  | basicHint =>
    simp only [clStep, Option.some.injEq] at e
    subst e
    exact ⟨⟨a1, a2, a3, a4, a5, a6⟩, ⟨r1, r2, r3, r4, r5, r6⟩⟩
  | proxySetServer n p =>
    simp only [clStep, Option.some.injEq] at e
    subst e
    simp only [proxySetServer]
    split
    · exact same
    · split
      · exact same
      · split
        · exact same
        · rename_i nm _ hp
          exact ⟨⟨strcpyS_terminated c.server nm 255 a1 (Or.inl rfl), a2, a3, a4, a5, a6⟩,
            ⟨by simp only; omega, r2, r3, r4, r5, r6⟩⟩

/-- C70: after any sequence of configuration calls on a client every character array is
terminated inside its 256 bytes and every setting is in its range; no call is undefined. -/
theorem C70_client_ranges (lib : CLib) (ops : List ClOp) :
    ∃ c, clRun lib ops = some c ∧ ArraysOk c ∧ ClRange c := by
  have key : ∀ (ops : List ClOp) (c : Cl), ArraysOk c → ClRange c →
      ∃ c', clRunFrom lib c ops = some c' ∧ ArraysOk c' ∧ ClRange c' := by
    intro ops
    induction ops with
    | nil => intro c h1 h2; exact ⟨c, rfl, h1, h2⟩
    | cons op ops ih =>
      intro c h1 h2
      have hd : ∃ r, clStep lib c op = some r := by
        cases op with
        | setServer n p g =>
          simp only [clStep, setServer]
          split
          · exact ⟨_, rfl⟩
          · split
            · exact ⟨_, rfl⟩
            · split
              · exact ⟨_, rfl⟩
              · split
                · exact ⟨_, rfl⟩
                · split
                  · split
                    · exact ⟨_, rfl⟩
                    · rename_i g0
                      split
                      · exact ⟨_, rfl⟩
                      · obtain ⟨b, hb, _⟩ := C69_accepted_iff lib _ g0
                        rw [hb]
                        cases b <;> exact ⟨_, rfl⟩
                  · exact ⟨_, rfl⟩
        | _ => exact ⟨_, rfl⟩
      obtain ⟨r, hr⟩ := hd
      obtain ⟨h3, h4⟩ := clOk_step lib c op r h1 h2 hr
      obtain ⟨c', h5, h6⟩ := ih r.2 h3 h4
      refine ⟨c', ?_, h6⟩
      simp only [clRunFrom, hr]
      exact h5
  refine key ops _ ⟨zeros_terminated, zeros_terminated, zeros_terminated, zeros_terminated,
    zeros_terminated, zeros_terminated⟩ ⟨by decide, by decide, by decide, by decide, by decide, ?_⟩
  intro s hs
  simp [Cl.init] at hs

example : (clRun exC [.setServer (some [99, 97, 46, 101, 120, 97, 109, 112, 108, 101]) 8085 (some [108, 97, 98, 55]),
    .setReadTimeout 4000]).map (fun c => (c.port, c.readTimeout)) = some (8085, 10) := by
  decide +kernel

/-- C70, the part that holds for `est_client_set_server`: after success the server name and
the port are the given ones, the given path segment is in force, and nothing else changed; but
without a path segment the old one stays. -/
theorem C70_set_server_partial (lib : CLib) (c c' : Cl) (n : Option (List Nat)) (p : Int)
    (g : Option (List Nat)) (ha : ArraysOk c) (hz : ∀ t, n = some t → NoNul t)
    (h : setServer lib c n p g = some (.none, c')) :
    n = some (cstr c'.server) ∧ c'.port = p ∧ 1 ≤ p ∧ p ≤ 65535 ∧
    c'.seg = g.or c.seg ∧
    c' = { c with server := c'.server, port := p, seg := c'.seg } := by
  cases n with
  | none => simp [setServer] at h
  | some t =>
    simp only [setServer] at h
    by_cases hp : p ≤ 0 ∨ p > 65535
    · rw [if_pos hp] at h; simp at h
    · rw [if_neg hp] at h
      by_cases hl : 255 < min t.length 256
      · rw [if_pos hl] at h; simp at h
      · rw [if_neg hl] at h
        have hs := strcpyS_cstr c.server t 255 ha.server (Or.inl rfl) (by omega) (hz t rfl)
        cases g with
        | none =>
          simp only [Option.some.injEq, Prod.mk.injEq, true_and] at h
          subst h
          exact ⟨by simp only [hs], rfl, by omega, by omega, rfl, rfl⟩
        | some s =>
          simp only at h
          split at h
          · split at h
            · simp at h
            · split at h
              · simp at h
              · split at h
                · cases h
                · simp at h
                · simp only [Option.some.injEq, Prod.mk.injEq, true_and] at h
                  subst h
                  exact ⟨by simp only [hs], rfl, by omega, by omega, rfl, rfl⟩
          · simp at h

example : (setServer exC Cl.init (some [99, 97, 46, 101, 120, 97, 109, 112, 108, 101]) 8085 none).map (fun r => (r.1, r.2.port))
    = some (.none, 8085) := by decide +kernel

/-- C70 is false as stated (1): choosing a server without path segment keeps the path segment
configured for the previous server. -/
theorem C70_segment_kept_false :
    ((clRun exC [.setServer (some [97]) 1 (some [108, 97, 98, 55]), .setServer (some [98]) 2 none]).map
      (fun c => (cstr c.server, c.port, c.seg))) = some ([98], 2, some [108, 97, 98, 55]) := by
  decide +kernel

/-- C70, the part that holds for `est_client_set_auth`: after success the given user id and
password are stored whole, no credentials are volunteered, certificate and key are the given
ones, and if both are given they match and are what TLS uses. -/
theorem C70_set_auth_partial (lib : CLib) (c : Cl) (u p : Option (List Nat)) (x k : Option Nat)
    (ha : ArraysOk c) (hu : ∀ t, u = some t → NoNul t) (hp : ∀ t, p = some t → NoNul t)
    (h : (setAuth lib c u p x k).1 = .none) :
    let c' := (setAuth lib c u p x k).2
    c'.authMode = 0 ∧ c'.cert = x ∧ c'.key = k ∧
    (∀ t, u = some t → cstr c'.userid = t) ∧ (∀ t, p = some t → cstr c'.password = t) ∧
    (∀ cx ck, x = some cx → k = some ck →
      c'.tlsCert = some cx ∧ c'.tlsKey = some ck ∧ lib.fits cx ck = true) := by
  intro c'
  have hc' : c' = (setAuth lib c u p x k).2 := rfl
  have one : (setUidPw c u p).1 = .none →
      (∀ t, u = some t → cstr (setUidPw c u p).2.userid = t) ∧
      (∀ t, p = some t → cstr (setUidPw c u p).2.password = t) := by
    intro h1
    unfold setUidPw at h1 ⊢
    cases u with
    | none =>
      cases p with
      | none => exact ⟨by simp, by simp⟩
      | some p => simp at h1
    | some u =>
      cases p with
      | none => simp at h1
      | some p =>
        simp only at h1 ⊢
        split at h1
        · simp at h1
        · rename_i hl
          rw [if_neg hl]
          split at h1
          · simp at h1
          · rename_i hl2
            rw [if_neg hl2]
            refine ⟨?_, ?_⟩
            · intro t ht
              simp at ht
              subst ht
              exact strcpyS_cstr c.userid u 255 ha.userid (Or.inl rfl) (by omega) (hu u rfl)
            · intro t ht
              simp at ht
              subst ht
              exact strcpyS_cstr c.password p 255 ha.password (Or.inl rfl) (by omega) (hp p rfl)
  unfold setAuth at h hc'
  simp only at h hc'
  by_cases h1 : (setUidPw c u p).1 = .none
  · obtain ⟨o1, o2⟩ := one h1
    rw [if_neg (by simp [h1])] at h hc'
    cases x with
    | none =>
      simp only at hc'
      rw [hc']
      exact ⟨rfl, rfl, rfl, o1, o2, by simp⟩
    | some x =>
      cases k with
      | none =>
        simp only at hc'
        rw [hc']
        exact ⟨rfl, rfl, rfl, o1, o2, by simp⟩
      | some k =>
        simp only [setCertAndKey] at h hc'
        by_cases k1 : lib.certOk x = true
        · by_cases k2 : lib.keyOk k = true
          · by_cases k3 : lib.fits x k = true
            · simp only [k1, k2, k3, Bool.not_true, Bool.false_eq_true, if_false, if_true] at hc'
              rw [hc']
              refine ⟨rfl, rfl, rfl, o1, o2, ?_⟩
              intro cx ck e1 e2
              simp at e1 e2
              subst e1; subst e2
              exact ⟨rfl, rfl, k3⟩
            · simp [k1, k2, k3] at h
          · simp [k1, k2] at h
        · simp [k1] at h
  · rw [if_pos h1] at h
    exact absurd h h1

example : (setAuth exC Cl.init (some [97, 108, 105, 99, 101]) (some [112, 119, 65]) (some 7) (some 7)).1 = .none := by
  decide +kernel

/-- C70 is false as stated (2): after a call without certificate the TLS connections still use
the certificate and key of the call before. -/
theorem C70_old_certificate_false :
    let c := (setAuth exC Cl.init none none (some 7) (some 7)).2
    let r := setAuth exC c (some [98, 111, 98]) (some [112, 119]) none none
    r.1 = .none ∧ r.2.cert = none ∧ r.2.tlsCert = some 7 ∧ r.2.tlsKey = some 7 := by
  decide +kernel

/-- C70 is false as stated (3): after a call without user id the old user id and password stay
stored and will be used. -/
theorem C70_old_user_false :
    let c := (setAuth exC Cl.init (some [97, 108, 105, 99, 101]) (some [112, 119, 65]) none none).2
    let r := setAuth exC c none none (some 7) (some 7)
    r.1 = .none ∧ cstr r.2.userid = [97, 108, 105, 99, 101] ∧ cstr r.2.password = [112, 119, 65] := by
  decide +kernel

theorem setProxyUser_spec (c : Cl) (a : Nat) (u w : Option (List Nat))
    (h5 : Terminated c.pUser) (h6 : Terminated c.pPassword)
    (hu : ∀ t, u = some t → NoNul t) (hw : ∀ t, w = some t → NoNul t)
    (h : (setProxyUser c a u w).1 = .none) :
    let c' := (setProxyUser c a u w).2
    c'.useProxy = true ∧ c'.pServer = c.pServer ∧ c'.pPort = c.pPort ∧ c'.pProto = c.pProto ∧
    c'.pAuth = c.pAuth ∧ c'.server = c.server ∧
    (a ≠ 0 → ∀ tu tw, u = some tu → w = some tw →
      cstr c'.pUser = tu ∧ cstr c'.pPassword = tw ∧ tu ≠ [] ∧ tw ≠ []) := by
  cases u with
  | none => exact ⟨rfl, rfl, rfl, rfl, rfl, rfl, by simp⟩
  | some u =>
    cases w with
    | none => exact ⟨rfl, rfl, rfl, rfl, rfl, rfl, by simp⟩
    | some w =>
      simp only [setProxyUser] at h ⊢
      by_cases a0 : a = 0
      · rw [if_pos a0]
        exact ⟨rfl, rfl, rfl, rfl, rfl, rfl, fun q => absurd a0 q⟩
      · rw [if_neg a0] at h ⊢
        by_cases d1 : 255 < min u.length 257
        · rw [if_pos d1] at h; simp at h
        · rw [if_neg d1] at h ⊢
          by_cases d2 : u = []
          · rw [if_pos d2] at h; simp at h
          · rw [if_neg d2] at h ⊢
            by_cases d3 : 255 < min w.length 257
            · rw [if_pos d3] at h; simp at h
            · rw [if_neg d3] at h ⊢
              by_cases d4 : w = []
              · rw [if_pos d4] at h; simp at h
              · rw [if_neg d4]
                refine ⟨rfl, rfl, rfl, rfl, rfl, rfl, ?_⟩
                intro _ tu tw q1 q2
                simp at q1 q2
                subst q1; subst q2
                exact ⟨strcpyS_cstr c.pUser u 256 h5 (Or.inr rfl) (by omega) (hu u rfl),
                  strcpyS_cstr c.pPassword w 256 h6 (Or.inr rfl) (by omega) (hw w rfl), d2, d4⟩

/-- C70, the part that holds for `est_client_set_proxy`: after success the proxy is in use with
the given name, port, protocol and authentication, and with authentication the given user name
and password are stored whole. -/
theorem C70_set_proxy_partial (lib : CLib) (c : Cl) (pr : Int) (n : Option (List Nat))
    (p a : Nat) (u w : Option (List Nat)) (ha : ArraysOk c) (hn : ∀ t, n = some t → NoNul t)
    (hu : ∀ t, u = some t → NoNul t) (hw : ∀ t, w = some t → NoNul t)
    (h : (setProxy lib c pr n p a u w).1 = .none) :
    let c' := (setProxy lib c pr n p a u w).2
    c'.useProxy = true ∧ n = some (cstr c'.pServer) ∧ cstr c'.pServer ≠ [] ∧ c'.pPort = p ∧ p ≠ 0 ∧
    c'.pProto = pr ∧ c'.pAuth = a ∧
    (a ≠ 0 → ∀ tu tw, u = some tu → w = some tw →
      cstr c'.pUser = tu ∧ cstr c'.pPassword = tw ∧ tu ≠ [] ∧ tw ≠ []) := by
  intro c'
  have hc' : c' = (setProxy lib c pr n p a u w).2 := rfl
  unfold setProxy at h hc'
  by_cases c1 : (!lib.libcurl) = true
  · rw [if_pos c1] at h; simp at h
  · rw [if_neg c1] at h hc'
    cases n with
    | none => simp at h
    | some nm =>
      simp only at h hc'
      by_cases c2 : nm = []
      · rw [if_pos c2] at h; simp at h
      · rw [if_neg c2] at h hc'
        by_cases c3 : 255 < min nm.length 257
        · rw [if_pos c3] at h; simp at h
        · rw [if_neg c3] at h hc'
          have e1 := strcpyS_cstr c.pServer nm 256 ha.pServer (Or.inr rfl) (by omega) (hn nm rfl)
          unfold setProxyKind at h hc'
          by_cases c4 : p = 0
          · rw [if_pos c4] at h; simp at h
          · rw [if_neg c4] at h hc'
            by_cases c5 : pr < 0 ∨ pr > 7
            · rw [if_pos c5] at h; simp at h
            · rw [if_neg c5] at h hc'
              by_cases c6 : a ≠ 0 ∧ a ≠ 1 ∧ a ≠ 8 ∧ a ≠ 9
              · rw [if_pos c6] at h; simp at h
              · rw [if_neg c6] at h hc'
                generalize hc0 : ({ c with
                  pServer := strcpyS c.pServer 256 nm
                  pPort := p
                  pProto := pr
                  pAuth := a } : Cl) = c0 at h hc'
                have q := setProxyUser_spec c0 a u w
                  (by rw [← hc0]; exact ha.pUser) (by rw [← hc0]; exact ha.pPassword) hu hw h
                simp only at q
                rw [← hc'] at q
                obtain ⟨q1, q2, q3, q4, q5, q6, q7⟩ := q
                have z1 : cstr c'.pServer = nm := by rw [q2, ← hc0]; exact e1
                exact ⟨q1, by rw [z1], by rw [z1]; exact c2, by rw [q3, ← hc0], c4,
                  by rw [q4, ← hc0], by rw [q5, ← hc0], q7⟩

example : (setProxy exC Cl.init 1 (some [112, 114, 111, 120, 121]) 3128 1 (some [117]) (some [112])).1 = .none := by
  decide +kernel

/-- C70: the proxy protocols 2 and 3, which do not exist, are accepted too. -/
theorem C70_unknown_protocol_accepted :
    (setProxy exC Cl.init 2 (some [112, 114, 111, 120, 121]) 3128 0 none none).1 = .none ∧
    (setProxy exC Cl.init 3 (some [112, 114, 111, 120, 121]) 3128 0 none none).1 = .none := by decide +kernel

/-- C31 is false of `est_client_set_proxy`: a refused call has replaced the name of the proxy
in use. -/
theorem C31_set_proxy_false :
    let c := (setProxy exC Cl.init 1 (some [112, 114, 111, 120, 121]) 3128 0 none none).2
    let r := setProxy exC c 9 (some [111, 116, 104, 101, 114]) 99 0 none none
    r.1 = .invalidClientProxyProtocol ∧ r.2.useProxy = true ∧ cstr r.2.pServer = [111, 116, 104, 101, 114] ∧
    r.2.pPort = 99 ∧ r.2.pProto = 1 := by decide +kernel

/-- C31 holds for `est_proxy_set_server` and the client's remaining setters: an error changes
nothing. -/
theorem C31_atomic_setters (c : Cl) (n : Option (List Nat)) (p v : Int) (d : Nat) :
    ((proxySetServer c n p).1 ≠ .none → (proxySetServer c n p).2 = c) ∧
    ((clReadTimeout c v).1 ≠ .none → (clReadTimeout c v).2 = c) ∧
    ((setDigest c d).1 ≠ .none → (setDigest c d).2 = c) := by
  refine ⟨?_, ?_, ?_⟩
  · unfold proxySetServer
    split
    · exact fun _ => rfl
    · repeat' split
      all_goals simp
  · unfold clReadTimeout
    split <;> simp
  · unfold setDigest
    split <;> simp

/-- C70: what `est_proxy_set_server` and the remaining setters do, outright. -/
theorem C70_simple_setters (c : Cl) (n : List Nat) (p v : Int) (d : Nat) (ha : ArraysOk c)
    (hn : NoNul n) :
    ((proxySetServer c (some n) p).1 = .none ↔ n.length ≤ 254 ∧ 1 ≤ p ∧ p ≤ 65535) ∧
    ((proxySetServer c (some n) p).1 = .none →
      cstr (proxySetServer c (some n) p).2.server = n ∧ (proxySetServer c (some n) p).2.port = p) ∧
    clReadTimeout c v = (if 1 ≤ v ∧ v ≤ 3600 then (.none, { c with readTimeout := v })
      else (.invalidParameters, c)) ∧
    setDigest c d = (if d ∈ [64, 672, 673, 674, 675] then (.none, { c with digest := d })
      else (.invalidDigest, c)) := by
  refine ⟨?_, ?_, ?_, ?_⟩
  · unfold proxySetServer
    simp only
    by_cases h1 : 254 < min n.length 255
    · rw [if_pos h1]; simp; omega
    · rw [if_neg h1]
      by_cases h2 : p ≤ 0 ∨ p > 65535
      · rw [if_pos h2]; simp; omega
      · rw [if_neg h2]; simp; omega
  · unfold proxySetServer
    simp only
    by_cases h1 : 254 < min n.length 255
    · rw [if_pos h1]; simp
    · rw [if_neg h1]
      by_cases h2 : p ≤ 0 ∨ p > 65535
      · rw [if_pos h2]; simp
      · rw [if_neg h2]
        intro _
        exact ⟨strcpyS_cstr c.server n 255 ha.server (Or.inl rfl) (by omega) hn, rfl⟩
  · unfold clReadTimeout
    by_cases h1 : v < 1 ∨ v > 3600
    · rw [if_pos h1, if_neg (by omega)]
    · rw [if_neg h1, if_pos (by omega)]
  · unfold setDigest
    by_cases h1 : d = 64 ∨ d = 675 ∨ d = 672 ∨ d = 673 ∨ d = 674
    · rw [if_pos h1, if_pos (by simp; omega)]
    · rw [if_neg h1, if_neg (by simp; omega)]

/-! ## Which calls are accepted -/

/-- C70: `est_client_set_server` succeeds exactly for a name of at most 255 characters, a port
from 1 to 65535 and, if a path segment is given, a library with uriparser and a segment of 1 to
128 characters that `est_parse_path_seg` accepts (C69). -/
theorem C70_set_server_accepts (lib : CLib) (c : Cl) (n : Option (List Nat)) (p : Int)
    (g : Option (List Nat)) :
    (∃ c', setServer lib c n p g = some (.none, c')) ↔
      (∃ t, n = some t ∧ t.length ≤ 255) ∧ 1 ≤ p ∧ p ≤ 65535 ∧
      (∀ s, g = some s → lib.uriparser = true ∧ s ≠ [] ∧ s.length ≤ 128 ∧
        lib.uriOk ([47, 46, 119, 101, 108, 108, 45, 107, 110, 111, 119, 110, 47, 101, 115, 116, 47] ++ s) = true ∧ SegText s ∧
        ∀ o, (isBrski o = true → lib.brski = true) → ¬ SameFold s (opName o)) := by
  cases n with
  | none => simp [setServer]
  | some t =>
    simp only [setServer]
    by_cases hp : p ≤ 0 ∨ p > 65535
    · rw [if_pos hp]
      constructor
      · rintro ⟨c', h⟩; simp at h
      · rintro ⟨_, a, b, _⟩; omega
    · rw [if_neg hp]
      by_cases hl : 255 < min t.length 256
      · rw [if_pos hl]
        constructor
        · rintro ⟨c', h⟩; simp at h
        · rintro ⟨⟨t', h1, h2⟩, _⟩
          simp at h1
          subst h1
          omega
      · rw [if_neg hl]
        have b1 : ∃ t', some t = some t' ∧ t'.length ≤ 255 := ⟨t, rfl, by omega⟩
        cases g with
        | none =>
          simp only
          constructor
          · intro _; exact ⟨b1, by omega, by omega, by simp⟩
          · intro _; exact ⟨_, rfl⟩
        | some s =>
          simp only
          by_cases hu : lib.uriparser = true
          · rw [if_pos hu]
            by_cases h0 : s = []
            · rw [if_pos h0]
              constructor
              · rintro ⟨c', h⟩; simp at h
              · rintro ⟨_, _, _, h⟩; exact absurd h0 (h s rfl).2.1
            · rw [if_neg h0]
              by_cases hs : min s.length 129 > 128
              · rw [if_pos hs]
                constructor
                · rintro ⟨c', h⟩; simp at h
                · rintro ⟨_, _, _, h⟩; have := (h s rfl).2.2.1; omega
              · rw [if_neg hs]
                obtain ⟨b, hb, hiff⟩ := C69_accepted_iff lib s h0
                rw [hb]
                cases b with
                | false =>
                  simp only
                  constructor
                  · rintro ⟨c', h⟩; simp at h
                  · rintro ⟨_, _, _, h⟩
                    have := hiff.2 ⟨(h s rfl).2.2.2.1, (h s rfl).2.2.2.2.1, (h s rfl).2.2.2.2.2⟩
                    simp at this
                | true =>
                  simp only
                  constructor
                  · intro _
                    refine ⟨b1, by omega, by omega, ?_⟩
                    intro s' e
                    simp at e
                    subst e
                    obtain ⟨x, y, z⟩ := hiff.1 rfl
                    exact ⟨hu, h0, by omega, x, y, z⟩
                  · intro _; exact ⟨_, rfl⟩
          · rw [if_neg hu]
            constructor
            · rintro ⟨c', h⟩; simp at h
            · rintro ⟨_, _, _, h⟩; exact absurd (h s rfl).1 hu

/-- C70: `est_client_set_auth` succeeds exactly if user id and password are both given with at
most 255 characters or both missing, and a certificate given with a key is taken by OpenSSL
and matches the key. -/
theorem C70_set_auth_accepts (lib : CLib) (c : Cl) (u p : Option (List Nat)) (x k : Option Nat) :
    (setAuth lib c u p x k).1 = .none ↔
      ((u = none ∧ p = none) ∨
        ∃ tu tp, u = some tu ∧ p = some tp ∧ tu.length ≤ 255 ∧ tp.length ≤ 255) ∧
      (∀ cx ck, x = some cx → k = some ck →
        lib.certOk cx = true ∧ lib.keyOk ck = true ∧ lib.fits cx ck = true) := by
  have one : (setUidPw c u p).1 = .none ↔ ((u = none ∧ p = none) ∨
        ∃ tu tp, u = some tu ∧ p = some tp ∧ tu.length ≤ 255 ∧ tp.length ≤ 255) := by
    unfold setUidPw
    cases u with
    | none => cases p <;> simp
    | some u =>
      cases p with
      | none => simp
      | some p =>
        simp only
        by_cases h1 : 255 < min u.length 256
        · rw [if_pos h1]; simp; omega
        · rw [if_neg h1]
          by_cases h2 : 255 < min p.length 256
          · rw [if_pos h2]; simp; omega
          · rw [if_neg h2]; simp; omega
  rw [← one]
  unfold setAuth
  simp only
  by_cases h1 : (setUidPw c u p).1 = .none
  · rw [if_neg (by simp [h1])]
    cases x with
    | none => simp [h1]
    | some x =>
      cases k with
      | none => simp [h1]
      | some k =>
        simp only [setCertAndKey]
        by_cases k1 : lib.certOk x = true
        · by_cases k2 : lib.keyOk k = true
          · by_cases k3 : lib.fits x k = true
            · simp [k1, k2, k3, h1]
            · simp [k1, k2, k3, h1]
          · simp [k1, k2, h1]
        · simp [k1, h1]
  · rw [if_pos h1]
    simp [h1]

/-- C70: `est_client_set_proxy` succeeds exactly for a name of 1 to 255 characters, a port,
a protocol number from 0 to 7, and Basic, NTLM, both or no authentication; user name and
password, if used, have 1 to 255 characters. -/
theorem C70_set_proxy_accepts (lib : CLib) (c : Cl) (pr : Int) (n : Option (List Nat))
    (p a : Nat) (u w : Option (List Nat)) :
    (setProxy lib c pr n p a u w).1 = .none ↔
      lib.libcurl = true ∧ (∃ t, n = some t ∧ t ≠ [] ∧ t.length ≤ 255) ∧ p ≠ 0 ∧
      (0 ≤ pr ∧ pr ≤ 7) ∧ a ∈ [0, 1, 8, 9] ∧
      (a ≠ 0 → ∀ tu tw, u = some tu → w = some tw →
        tu ≠ [] ∧ tu.length ≤ 255 ∧ tw ≠ [] ∧ tw.length ≤ 255) := by
  have one : ∀ c : Cl, (setProxyUser c a u w).1 = .none ↔
      (a ≠ 0 → ∀ tu tw, u = some tu → w = some tw →
        tu ≠ [] ∧ tu.length ≤ 255 ∧ tw ≠ [] ∧ tw.length ≤ 255) := by
    intro c
    unfold setProxyUser
    cases u with
    | none => cases w <;> simp
    | some u =>
      cases w with
      | none => simp
      | some w =>
        simp only
        by_cases a0 : a = 0
        · rw [if_pos a0]; simp [a0]
        · rw [if_neg a0]
          have e : (a ≠ 0 → ∀ tu tw, some u = some tu → some w = some tw →
              tu ≠ [] ∧ tu.length ≤ 255 ∧ tw ≠ [] ∧ tw.length ≤ 255) ↔
              (u ≠ [] ∧ u.length ≤ 255 ∧ w ≠ [] ∧ w.length ≤ 255) := by
            simp [a0]
          rw [e]
          by_cases d1 : 255 < min u.length 257
          · rw [if_pos d1]; simp; omega
          · rw [if_neg d1]
            by_cases d2 : u = []
            · rw [if_pos d2]; simp [d2]
            · rw [if_neg d2]
              by_cases d3 : 255 < min w.length 257
              · rw [if_pos d3]; simp; omega
              · rw [if_neg d3]
                by_cases d4 : w = []
                · rw [if_pos d4]; simp [d4]
                · rw [if_neg d4]
                  simp only [true_iff]
                  exact ⟨d2, by omega, d4, by omega⟩
  unfold setProxy
  by_cases c1 : lib.libcurl = true
  · rw [if_neg (by simp [c1])]
    cases n with
    | none => simp
    | some t =>
      simp only
      by_cases c2 : t = []
      · rw [if_pos c2]; simp [c2]
      · rw [if_neg c2]
        by_cases c3 : 255 < min t.length 257
        · rw [if_pos c3]
          simp
          intros
          omega
        · rw [if_neg c3]
          unfold setProxyKind
          have b1 : ∃ t', some t = some t' ∧ t' ≠ [] ∧ t'.length ≤ 255 := ⟨t, rfl, c2, by omega⟩
          by_cases c4 : p = 0
          · rw [if_pos c4]; simp [c4]
          · rw [if_neg c4]
            by_cases c5 : pr < 0 ∨ pr > 7
            · rw [if_pos c5]
              constructor
              · intro h; simp at h
              · rintro ⟨_, _, _, h, _⟩; omega
            · rw [if_neg c5]
              by_cases c6 : a ≠ 0 ∧ a ≠ 1 ∧ a ≠ 8 ∧ a ≠ 9
              · rw [if_pos c6]
                constructor
                · intro h; simp at h
                · rintro ⟨_, _, _, _, h, _⟩; simp at h; omega
              · rw [if_neg c6, one]
                constructor
                · intro h; exact ⟨c1, b1, c4, by omega, by simp; omega, h⟩
                · rintro ⟨_, _, _, _, _, h⟩; exact h
  · rw [if_pos (by simp [c1])]
    simp [c1]

/-- C71: what starting the CoAP server does, outright: the port is remembered even if the start
fails, and a started server asks for no HTTP authentication. -/
theorem C71_start (lib : Lib) (s : Srv) (port : Int) (ok : Bool) (hl : lib.libcoap = true) :
    coapStart lib s port ok =
      if 0 ≤ port ∧ port ≤ 65535 then
        if ok then (.none, { s with port := port, coap := true, required := 0 })
        else (.coapProcessingError, { s with port := port })
      else (.invalidPortNum, s) := by
  unfold coapStart
  rw [hl]
  simp only [Bool.not_true, Bool.false_eq_true, if_false]
  by_cases h : port < 0 ∨ port > 65535
  · rw [if_pos h, if_neg (by omega)]
  · have h' : 0 ≤ port ∧ port ≤ 65535 := by omega
    rw [if_neg h]
    cases ok <;> simp [h']

example : (coapStart exLib Srv.init 5683 true).2.required = 0 := by decide

end Verif.Setter
