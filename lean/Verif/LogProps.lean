import Verif.LogModel

/-!
# C125: what the library logs reaches the application, and nothing else changes

Messages reach the logger that was set last, exactly if their level is wanted; every error
message also reaches the error callback; a quieter level leaves out messages and changes nothing
else.
-/
namespace Verif.Log

/-! ### Specification -/

/-- The memory holds this string. -/
def Holds (m : List (Option Nat)) (w : List Nat) : Prop :=
  0 ∉ w ∧ ∃ rest, m = w.map some ++ some 0 :: rest

/-- What a format with these arguments shows. -/
inductive Shows : List Piece → List Arg → List Nat → Prop
  | nil (as) : Shows [] as []
  | lit (s) {f as t} : Shows f as t → Shows (.lit s :: f) as (s ++ t)
  | str {m w f as t} : Holds m w → Shows f as t → Shows (.str :: f) (.text m :: as) (w ++ t)
  | int (d) {f as t} : Shows f as t → Shows (.int :: f) (.num d :: as) (d ++ t)

/-- A message with its prefix. -/
def whole (s : Sev) (at_ : Site) (t : List Nat) : List Nat :=
  [42, 42, 42, 69, 83, 84, 32, 91] ++ s.tag ++ [93, 91] ++ at_.func ++ [58] ++ at_.line ++ [93, 45, 45, 62, 32] ++ t ++ [10]

/-- The last value set by one of the calls, or the default. -/
def lastOf {β : Type} (f : Op → Option β) (d : β) (ops : List Op) : β :=
  (ops.reverse.findSome? f).getD d

/-- Level and logger, if the call sets them. -/
def setsLogger : Op → Option (Nat × Option Nat)
  | .logger l f => some (l, f)
  | _ => none

/-- The error callback, if the call sets it. -/
def setsErr : Op → Option (Option Nat)
  | .onErr cb => some cb
  | _ => none

/-- The callback for TLS errors, if the call sets it. -/
def setsSsl : Op → Option (Option Nat)
  | .onSsl cb => some cb
  | _ => none

/-- The error callback is called for an error. -/
def event (st : St) (s : Sev) (t : List Nat) : List Out :=
  match s, st.errCb with
  | .err, some c => [.errEvent c t]
  | _, _ => []

/-! ### Messages -/

theorem strOf_iff : ∀ (m : List (Option Nat)) (w : List Nat), strOf m = some w ↔ Holds m w := by
  intro m
  induction m with
  | nil =>
    intro w
    constructor
    · intro h; cases h
    · rintro ⟨_, r, h⟩; cases w <;> simp at h
  | cons c m ih =>
    intro w
    match c with
    | none =>
      constructor
      · intro h; cases h
      · rintro ⟨_, r, h⟩; cases w <;> simp at h
    | some 0 =>
      constructor
      · intro h
        have : w = [] := by simpa [strOf] using h.symm
        subst this
        exact ⟨by simp, m, rfl⟩
      · rintro ⟨h0, r, h⟩
        cases w with
        | nil => rfl
        | cons x xs =>
          simp at h
          simp [← h.1] at h0
    | some (k + 1) =>
      have e : strOf (some (k + 1) :: m) =
          (match strOf m with | none => none | some w => some ((k + 1) :: w)) := rfl
      constructor
      · intro h
        rw [e] at h
        cases hs : strOf m with
        | none => rw [hs] at h; cases h
        | some v =>
          rw [hs] at h
          cases h
          obtain ⟨h0, r, hr⟩ := (ih v).mp hs
          exact ⟨by simp [h0], r, by simp [hr]⟩
      · rintro ⟨h0, r, h⟩
        cases w with
        | nil => simp at h
        | cons x xs =>
          simp only [List.map_cons, List.cons_append, List.cons.injEq, Option.some.injEq] at h
          obtain ⟨rfl, hm⟩ := h
          simp only [List.mem_cons, not_or] at h0
          rw [e, (ih xs).mpr ⟨h0.2, r, hm⟩]

theorem render_iff : ∀ (f : List Piece) (as : List Arg) (t : List Nat),
    render f as = some t ↔ Shows f as t := by
  intro f
  induction f with
  | nil =>
    intro as t
    constructor
    · intro h; cases h; exact .nil as
    · intro h; cases h; rfl
  | cons p f ih =>
    intro as t
    constructor
    · intro h
      match p, as with
      | .lit s, as =>
        simp only [render] at h
        cases hr : render f as with
        | none => rw [hr] at h; cases h
        | some v => rw [hr] at h; cases h; exact .lit s ((ih as v).mp hr)
      | .str, .text m :: as =>
        simp only [render] at h
        cases hs : strOf m with
        | none => rw [hs] at h; cases h
        | some w =>
          cases hr : render f as with
          | none => rw [hs, hr] at h; cases h
          | some v =>
            rw [hs, hr] at h; cases h
            exact .str ((strOf_iff m w).mp hs) ((ih as v).mp hr)
      | .int, .num d :: as =>
        simp only [render] at h
        cases hr : render f as with
        | none => rw [hr] at h; cases h
        | some v => rw [hr] at h; cases h; exact .int d ((ih as v).mp hr)
      | .str, [] => cases h
      | .str, .num _ :: _ => cases h
      | .str, .null :: _ => cases h
      | .str, .other :: _ => cases h
      | .int, [] => cases h
      | .int, .text _ :: _ => cases h
      | .int, .null :: _ => cases h
      | .int, .other :: _ => cases h
    · intro h
      cases h with
      | lit s h' => simp only [render, (ih _ _).mpr h']
      | str hm h' => simp only [render, (strOf_iff _ _).mpr hm, (ih _ _).mpr h']
      | int d h' => simp only [render, (ih _ _).mpr h']

theorem shows_append : ∀ (f : List Piece) (as : List Arg) (t s : List Nat),
    Shows f as t → Shows (f ++ [.lit s]) as (t ++ s) := by
  intro f as t s h
  induction h with
  | nil as => simpa using Shows.lit s (.nil as)
  | lit x _ ih => simpa using Shows.lit x ih
  | str hm _ ih => simpa using Shows.str hm ih
  | int d _ ih => simpa using Shows.int d ih

theorem shows_cut : ∀ (f : List Piece) (as : List Arg) (t s : List Nat),
    Shows (f ++ [.lit s]) as t → ∃ t', t = t' ++ s ∧ Shows f as t' := by
  intro f
  induction f with
  | nil =>
    intro as t s h
    cases h with
    | lit _ h' => cases h'; exact ⟨[], by simp, .nil _⟩
  | cons p f ih =>
    intro as t s h
    cases h with
    | lit x h' =>
      obtain ⟨t', rfl, h2⟩ := ih _ _ _ h'
      exact ⟨x ++ t', by simp, .lit x h2⟩
    | str hm h' =>
      obtain ⟨t', rfl, h2⟩ := ih _ _ _ h'
      exact ⟨_ ++ t', by simp, .str hm h2⟩
    | int d h' =>
      obtain ⟨t', rfl, h2⟩ := ih _ _ _ h'
      exact ⟨d ++ t', by simp, .int d h2⟩

theorem fmt_iff (s : Sev) (at_ : Site) (hf : 0 ∉ at_.func) (fmt : List Piece) (args : List Arg)
    (t : List Nat) :
    Shows (fmtOf s fmt) (.text (at_.func.map some ++ [some 0]) :: .num at_.line :: args) t ↔
      ∃ t', t = whole s at_ t' ∧ Shows fmt args t' := by
  unfold fmtOf
  simp only [List.cons_append, List.nil_append]
  constructor
  · intro h
    cases h with
    | lit _ h => cases h with
      | str hm h => cases h with
        | lit _ h => cases h with
          | int _ h => cases h with
            | lit _ h =>
              obtain ⟨t', rfl, h2⟩ := shows_cut _ _ _ _ h
              refine ⟨t', ?_, h2⟩
              have hw : strOf (at_.func.map some ++ [some 0]) = some at_.func :=
                (strOf_iff _ _).mpr ⟨hf, [], rfl⟩
              rw [(strOf_iff _ _).mpr hm] at hw
              cases hw
              simp [whole]
  · rintro ⟨t', rfl, h⟩
    have := Shows.lit ([42, 42, 42, 69, 83, 84, 32, 91] ++ s.tag ++ [93, 91]) (Shows.str (m := at_.func.map some ++ [some 0])
      (w := at_.func) ⟨hf, [], rfl⟩ (Shows.lit [58] (Shows.int at_.line
        (Shows.lit [93, 45, 45, 62, 32] (shows_append fmt args t' [10] h)))))
    simpa [whole] using this

theorem logAt_quiet (st : St) (s : Sev) (at_ : Site) (syms : Option (List (List Nat)))
    (fmt : List Piece) (args : List Arg) (hb : st.bt = false) (hl : st.lvl < s.lvl) :
    logAt st s at_ syms fmt args = some [] := by
  simp [logAt, estLog, hl, backtrace, hb]

/-- C125: a message whose level is wanted reaches the logger with its prefix and the text its
format shows; if it is an error, the error callback gets the same text. -/
theorem C125_delivered (st : St) (s : Sev) (at_ : Site) (syms : Option (List (List Nat)))
    (fmt : List Piece) (args : List Arg) (t : List Nat) (hf : 0 ∉ at_.func)
    (hb : st.bt = false) (hl : s.lvl ≤ st.lvl) (hs : Shows fmt args t) :
    logAt st s at_ syms fmt args =
      some (.line st.func (whole s at_ t) :: event st s (whole s at_ t)) := by
  have hr := (render_iff _ _ _).mpr ((fmt_iff s at_ hf fmt args _).mpr ⟨t, rfl, hs⟩)
  have hl' : ¬ st.lvl < s.lvl := by omega
  simp only [logAt, estLog, if_neg hl', hr, backtrace, hb]
  cases s <;> cases he : st.errCb <;> simp [event, Sev.lvl, he]

/-- A concrete message. -/
def exSite : Site := ⟨[102], [55]⟩

example : logAt ⟨some 5, 2, false, some 9, none⟩ .err exSite none [.lit [114, 118, 32], .int] [.num [51]] =
    some [.line (some 5) [42, 42, 42, 69, 83, 84, 32, 91, 69, 82, 82, 79, 82, 93, 91, 102, 58, 55, 93, 45, 45, 62, 32, 114, 118, 32, 51, 10],
      .errEvent 9 [42, 42, 42, 69, 83, 84, 32, 91, 69, 82, 82, 79, 82, 93, 91, 102, 58, 55, 93, 45, 45, 62, 32, 114, 118, 32, 51, 10]] := by decide

/-- C125: a message whose level is not wanted reaches nobody, and its arguments are not looked
at. -/
theorem C125_dropped (st : St) (s : Sev) (at_ : Site) (syms : Option (List (List Nat)))
    (fmt : List Piece) (args : List Arg) (hb : st.bt = false) (hl : st.lvl < s.lvl) :
    logAt st s at_ syms fmt args = some [] :=
  logAt_quiet st s at_ syms fmt args hb hl

example : logAt St.init .warn exSite none [.str] [.null] = some [] := by decide

/-- C125: with one of the levels of the library every error message whose format fits is
announced to the error callback exactly once, whatever the level. -/
theorem C125_error_announced (st : St) (c : Nat) (at_ : Site) (syms : Option (List (List Nat)))
    (fmt : List Piece) (args : List Arg) (t : List Nat) (hf : 0 ∉ at_.func)
    (hb : st.bt = false) (hl : ∃ s : Sev, st.lvl = s.lvl) (hc : st.errCb = some c)
    (hs : Shows fmt args t) :
    logAt st .err at_ syms fmt args = some [.line st.func (whole .err at_ t),
      .errEvent c (whole .err at_ t)] := by
  have h1 : Sev.lvl .err ≤ st.lvl := by
    obtain ⟨s, h⟩ := hl
    rw [h]; cases s <;> decide
  rw [C125_delivered st .err at_ syms fmt args t hf hb h1 hs]
  simp [event, hc]

example : ∃ s : Sev, (⟨none, 1, false, some 4, none⟩ : St).lvl = s.lvl := ⟨.err, rfl⟩

/-! ### Settings -/

theorem run_append (st : St) (a b : List Op) : run st (a ++ b) =
    (match run st a with
     | none => none
     | some (s, o) => (run s b).map fun r => (r.1, o ++ r.2)) := by
  induction a generalizing st with
  | nil =>
    simp only [List.nil_append, run]
    cases run st b <;> simp
  | cons op ops ih =>
    simp only [List.cons_append, run]
    cases step st op with
    | none => rfl
    | some x =>
      obtain ⟨st', o⟩ := x
      simp only [ih]
      cases run st' ops with
      | none => rfl
      | some y =>
        obtain ⟨s, o'⟩ := y
        simp only
        cases run s b <;> simp

theorem lastOf_snoc {β : Type} (f : Op → Option β) (d : β) (ops : List Op) (op : Op) :
    lastOf f d (ops ++ [op]) = (f op).getD (lastOf f d ops) := by
  unfold lastOf
  rw [List.reverse_append]
  simp only [List.reverse_cons, List.reverse_nil, List.nil_append, List.cons_append,
    List.findSome?_cons]
  cases f op <;> rfl

theorem step_settings (st st' : St) (op : Op) (o : List Out) (h : step st op = some (st', o)) :
    (st'.lvl, st'.func) = (setsLogger op).getD (st.lvl, st.func) ∧
      st'.errCb = (setsErr op).getD st.errCb ∧ st'.sslCb = (setsSsl op).getD st.sslCb := by
  cases op with
  | logger l f => cases h; exact ⟨rfl, rfl, rfl⟩
  | trace on => cases h; exact ⟨rfl, rfl, rfl⟩
  | onErr cb =>
    obtain ⟨x, _, hx⟩ := Option.map_eq_some_iff.mp h
    cases hx; exact ⟨rfl, rfl, rfl⟩
  | onSsl cb =>
    obtain ⟨x, _, hx⟩ := Option.map_eq_some_iff.mp h
    cases hx; exact ⟨rfl, rfl, rfl⟩
  | msg s a y f as =>
    obtain ⟨x, _, hx⟩ := Option.map_eq_some_iff.mp h
    cases hx; exact ⟨rfl, rfl, rfl⟩
  | dump y b e r =>
    obtain ⟨x, _, hx⟩ := Option.map_eq_some_iff.mp h
    cases hx; exact ⟨rfl, rfl, rfl⟩

/-- C125: the level, the logger and the two callbacks in force are those that were set last,
whatever was logged in between. -/
theorem C125_last_setting (ops : List Op) : ∀ (st : St) (o : List Out),
    run St.init ops = some (st, o) →
    (st.lvl, st.func) = lastOf setsLogger (1, none) ops ∧
      st.errCb = lastOf setsErr none ops ∧ st.sslCb = lastOf setsSsl none ops := by
  generalize hr : ops.reverse = r
  induction r generalizing ops with
  | nil =>
    intro st o h
    have : ops = [] := by simpa using hr
    subst this
    cases h
    exact ⟨rfl, rfl, rfl⟩
  | cons op rs ih =>
    intro st o h
    have he : ops = rs.reverse ++ [op] := by
      have := congrArg List.reverse hr
      simpa using this
    subst he
    rw [run_append] at h
    cases hx : run St.init rs.reverse with
    | none => rw [hx] at h; cases h
    | some x =>
      obtain ⟨s, o1⟩ := x
      rw [hx] at h
      simp only at h
      obtain ⟨y, hy, he⟩ := Option.map_eq_some_iff.mp h
      obtain ⟨i1, i2, i3⟩ := ih rs.reverse (by simp) s o1 hx
      obtain ⟨s2, o2⟩ := y
      cases he
      have hst : ∃ oo, step s op = some (s2, oo) := by
        simp only [run] at hy
        cases hs : step s op with
        | none => rw [hs] at hy; cases hy
        | some z =>
          obtain ⟨a, b⟩ := z
          rw [hs] at hy
          simp only [Option.some.injEq, Prod.mk.injEq] at hy
          exact ⟨b, by rw [hy.1]⟩
      obtain ⟨oo, hs⟩ := hst
      obtain ⟨a1, a2, a3⟩ := step_settings _ _ _ _ hs
      rw [lastOf_snoc, lastOf_snoc, lastOf_snoc, ← i1, ← i2, ← i3]
      exact ⟨a1, a2, a3⟩

example : (run St.init [.logger 3 (some 1), .onErr (some 4), .logger 2 none, .onErr none]).map
    (fun r => (r.1.lvl, r.1.func, r.1.errCb)) = some (2, none, none) := by decide

/-! ### Quieter levels -/

theorem logAt_mono (st : St) (a b : Nat) (hab : a ≤ b) (s : Sev) (at_ : Site)
    (syms : Option (List (List Nat))) (fmt : List Piece) (args : List Arg) (o : List Out)
    (h : logAt { st with lvl := b } s at_ syms fmt args = some o) :
    ∃ o', logAt { st with lvl := a } s at_ syms fmt args = some o' ∧ o'.Sublist o := by
  have key : ∀ (x : List Out), estLog { st with lvl := b } s.lvl (fmtOf s fmt)
      (.text (at_.func.map some ++ [some 0]) :: .num at_.line :: args) = some x →
      ∃ x', estLog { st with lvl := a } s.lvl (fmtOf s fmt)
        (.text (at_.func.map some ++ [some 0]) :: .num at_.line :: args) = some x' ∧
        x'.Sublist x := by
    intro x hx
    by_cases ha : a < s.lvl
    · exact ⟨[], by simp [estLog, ha], by simp⟩
    · have hb : ¬ b < s.lvl := by omega
      refine ⟨x, ?_, List.Sublist.refl _⟩
      rw [← hx]
      simp only [estLog, if_neg ha, if_neg hb]
  have hbt : backtrace { st with lvl := a } syms = backtrace { st with lvl := b } syms := rfl
  unfold logAt at h ⊢
  cases hx : estLog { st with lvl := b } s.lvl (fmtOf s fmt)
      (.text (at_.func.map some ++ [some 0]) :: .num at_.line :: args) with
  | none => rw [hx] at h; cases h
  | some x =>
    obtain ⟨x', hx', hsub⟩ := key x hx
    rw [hx] at h
    rw [hx', hbt]
    by_cases hs : s = .info
    · simp only [if_pos hs] at h ⊢
      cases h
      exact ⟨_, rfl, hsub⟩
    · simp only [if_neg hs] at h ⊢
      cases hB : backtrace { st with lvl := b } syms with
      | none => rw [hB] at h; cases h
      | some y =>
        rw [hB] at h
        cases h
        exact ⟨_, rfl, hsub.append (List.Sublist.refl _)⟩

/-- C125: a quieter level leaves out messages and changes nothing else: what is defined with the
more talkative level is defined with the quieter one, the settings afterwards are the same, and
the log is that of the other with some messages missing. -/
theorem C125_quieter (a b : Nat) (hab : a ≤ b) : ∀ (ops : List Op) (st : St),
    (∀ op ∈ ops, setsLogger op = none) → ∀ (s : St) (o : List Out),
    run { st with lvl := b } ops = some (s, o) →
    ∃ o', run { st with lvl := a } ops = some ({ s with lvl := a }, o') ∧ o'.Sublist o := by
  intro ops
  induction ops with
  | nil => intro st _ s o h; cases h; exact ⟨[], rfl, by simp⟩
  | cons op ops ih =>
    intro st hn s o h
    have one : ∀ (x : St) (p : List Out), step { st with lvl := b } op = some (x, p) →
        ∃ p' : List Out, ∃ y : St, x = { y with lvl := b } ∧
          step { st with lvl := a } op = some ({ y with lvl := a }, p') ∧ p'.Sublist p := by
      intro x p hx
      cases op with
      | logger l f => exact absurd (hn (.logger l f) (by simp)) (by simp [setsLogger])
      | trace on => cases hx; exact ⟨[], { st with bt := on }, rfl, rfl, by simp⟩
      | onErr cb =>
        obtain ⟨q, hq, he⟩ := Option.map_eq_some_iff.mp hx
        cases he
        obtain ⟨q', hq', hsub⟩ := logAt_mono st a b hab _ _ _ _ _ _ hq
        refine ⟨q', { st with errCb := cb }, rfl, ?_, hsub⟩
        exact Option.map_eq_some_iff.mpr ⟨q', hq', rfl⟩
      | onSsl cb =>
        obtain ⟨q, hq, he⟩ := Option.map_eq_some_iff.mp hx
        cases he
        obtain ⟨q', hq', hsub⟩ := logAt_mono st a b hab _ _ _ _ _ _ hq
        refine ⟨q', { st with sslCb := cb }, rfl, ?_, hsub⟩
        exact Option.map_eq_some_iff.mpr ⟨q', hq', rfl⟩
      | msg sv at_ syms fmt args =>
        obtain ⟨q, hq, he⟩ := Option.map_eq_some_iff.mp hx
        cases he
        obtain ⟨q', hq', hsub⟩ := logAt_mono st a b hab _ _ _ _ _ _ hq
        refine ⟨q', st, rfl, ?_, hsub⟩
        exact Option.map_eq_some_iff.mpr ⟨q', hq', rfl⟩
      | dump syms bio errors behind =>
        obtain ⟨q, hq, he⟩ := Option.map_eq_some_iff.mp hx
        cases he
        have : ∃ q', dump { st with lvl := a } syms bio errors behind = some q' ∧
            q'.Sublist p := by
          unfold dump at hq ⊢
          by_cases hbio : (!bio) = true
          · simp only [if_pos hbio] at hq ⊢
            exact logAt_mono st a b hab _ _ _ _ _ _ hq
          · simp only [if_neg hbio] at hq ⊢
            split at hq
            · cases hq
            · rename_i z hz
              cases hq
              obtain ⟨z', hz', hsub⟩ := logAt_mono st a b hab _ _ _ _ _ _ hz
              rw [hz']
              exact ⟨_, rfl, hsub.append (List.Sublist.refl _)⟩
        obtain ⟨q', hq', hsub⟩ := this
        refine ⟨q', st, rfl, ?_, hsub⟩
        exact Option.map_eq_some_iff.mpr ⟨q', hq', rfl⟩
    simp only [run] at h ⊢
    cases hs : step { st with lvl := b } op with
    | none => rw [hs] at h; cases h
    | some x =>
      obtain ⟨x, p⟩ := x
      obtain ⟨p', y, rfl, hy, hsub⟩ := one x p hs
      rw [hs] at h
      simp only at h
      cases hrest : run { y with lvl := b } ops with
      | none => rw [hrest] at h; cases h
      | some z =>
        obtain ⟨z, o2⟩ := z
        rw [hrest] at h
        cases h
        obtain ⟨o2', h2, hsub2⟩ := ih y (fun q hq => hn q (by simp [hq])) _ _ hrest
        rw [hy]
        simp only [h2]
        exact ⟨_, rfl, hsub.append hsub2⟩

example : (run ⟨none, 3, false, none, none⟩
      [.onErr (some 4), .msg .err exSite none [.lit [120]] []]).map (fun r => r.2.length) = some 3 ∧
    (run ⟨none, 1, false, none, none⟩
      [.onErr (some 4), .msg .err exSite none [.lit [120]] []]).map (fun r => r.2.length) = some 2 := by
  decide

/-! ### OpenSSL's errors -/

/-- C125 (partial): if there is an error in OpenSSL's queue and the byte behind the text happens
to be a NUL, the logger and the callback get exactly the text of the queue.  Missing: the other
cases, see `C125_no_errors_false` and `C125_not_terminated_false`. -/
theorem C125_ssl_errors_partial (st : St) (syms : Option (List (List Nat)))
    (errors : List (List Nat)) (rest : List (Option Nat)) (h0 : 0 ∉ errors.flatten)
    (hne : errors.flatten ≠ []) (hb : st.bt = false) (hl : 2 ≤ st.lvl) :
    ∃ m, Holds m errors.flatten ∧
      dump st syms true errors (some 0 :: rest) =
        some (.line st.func (whole .warn ⟨[111, 115, 115, 108, 95, 100, 117, 109, 112, 95, 115, 115, 108, 95, 101, 114, 114, 111, 114, 115], [51, 50, 51]⟩
          ([79, 83, 83, 76, 32, 101, 114, 114, 111, 114, 58, 32] ++ errors.flatten)) ::
          (match st.sslCb with
           | some c => [.sslEvent c (.text m)]
           | none => [])) := by
  refine ⟨errors.flatten.map some ++ some 0 :: rest, ⟨h0, rest, rfl⟩, ?_⟩
  have hd := C125_delivered st .warn ⟨[111, 115, 115, 108, 95, 100, 117, 109, 112, 95, 115, 115, 108, 95, 101, 114, 114, 111, 114, 115], [51, 50, 51]⟩ syms
    [.lit [79, 83, 83, 76, 32, 101, 114, 114, 111, 114, 58, 32], .str] [.text (errors.flatten.map some ++ some 0 :: rest)]
    ([79, 83, 83, 76, 32, 101, 114, 114, 111, 114, 58, 32] ++ errors.flatten) (by decide) hb hl (by
      have := Shows.lit [79, 83, 83, 76, 32, 101, 114, 114, 111, 114, 58, 32] (Shows.str (m := errors.flatten.map some ++ some 0 :: rest)
        (w := errors.flatten) ⟨h0, rest, rfl⟩ (Shows.nil []))
      simpa using this)
  simp only [dump, Bool.not_true, Bool.false_eq_true, if_false, if_neg hne, hd]
  cases hc : st.sslCb <;> simp [event]

example : dump ⟨none, 2, false, none, some 8⟩ none true [[98, 97, 100, 10]] [some 0, none] =
    some [.line none [42, 42, 42, 69, 83, 84, 32, 91, 87, 65, 82, 78, 73, 78, 71, 93, 91, 111, 115, 115, 108, 95, 100, 117, 109, 112, 95, 115, 115, 108, 95, 101, 114, 114, 111, 114, 115, 58, 51, 50, 51, 93, 45, 45, 62, 32, 79, 83, 83, 76, 32, 101, 114, 114, 111, 114, 58, 32, 98, 97, 100, 10, 10],
      .sslEvent 8 (.text [some 98, some 97, some 100, some 10, some 0, none])] := by decide

/-- C125: with the default level `ossl_dump_ssl_errors` prints nothing and is always defined. -/
theorem C125_ssl_errors_default (st : St) (syms : Option (List (List Nat)))
    (errors : List (List Nat)) (behind : List (Option Nat)) (hb : st.bt = false)
    (hl : st.lvl = 1) (hc : st.sslCb = none) :
    dump st syms true errors behind = some [] := by
  simp only [dump, Bool.not_true, Bool.false_eq_true, if_false]
  rw [logAt_quiet _ _ _ _ _ _ hb (by rw [hl]; decide)]
  simp [hc]

example : dump St.init none true [] [] = some [] := by decide

/-- C125 is false of `ossl_dump_ssl_errors` when OpenSSL has no error to report: the buffer of the
BIO is NULL then and is printed with `%s`; with the default level the callback gets NULL. -/
theorem C125_no_errors_false :
    dump ⟨none, 2, false, none, none⟩ none true [] [] = none ∧
      dump ⟨none, 1, false, none, some 8⟩ none true [] [] = some [.sslEvent 8 .null] := by
  decide

/-- C125 is false of `ossl_dump_ssl_errors`: the text in the buffer of the BIO does not end in a
NUL, and what is behind it has not been written to. -/
theorem C125_not_terminated_false :
    dump ⟨none, 2, false, none, none⟩ none true [[98, 97, 100, 10]] [none] = none ∧
      ∃ m, dump ⟨none, 1, false, none, some 8⟩ none true [[98, 97, 100, 10]] [none] =
        some [.sslEvent 8 (.text m)] ∧ ∀ w, ¬ Holds m w := by
  refine ⟨by decide, [some 98, some 97, some 100, some 10, none], by decide, ?_⟩
  intro w h
  have := (strOf_iff _ _).mpr h
  simp [strOf] at this

/-! ### Backtraces -/

/-- C125 is false with backtraces: the one of a warning is logged even where the warning itself
is not. -/
theorem C125_backtrace_alone_false :
    logAt ⟨none, 1, true, none, none⟩ .warn exSite (some [[109, 97, 105, 110]]) [.lit [120]] [] =
      some [.line none [10, 109, 97, 105, 110], .line none [10, 10]] := by decide

/-- C125 is false with backtraces: `backtrace_symbols` may return NULL. -/
theorem C125_no_symbols_false :
    logAt ⟨none, 3, true, none, none⟩ .warn exSite none [.lit [120]] [] = none := by decide

/-! ### CA certificates -/

theorem trust_quiet (st : St) (syms : Option (List (List Nat))) (hl : st.lvl < 3) (cs : List Cert) :
    trustLoop st syms cs = some [] := by
  have hi : ∀ at_ f as, logAt st .info at_ syms f as = some [] := by
    intro at_ f as
    have : st.lvl < Sev.lvl .info := hl
    simp [logAt, estLog, this]
  induction cs with
  | nil => rfl
  | cons c cs ih => simp only [trustLoop, hi, ih, ite_self, List.append_nil]

/-- C125 (partial): with the default level the check of CA certificates is defined, logs nothing
and reports whether one of them does not verify.  Missing: the other levels, see
`C125_certificates_false`. -/
theorem C125_certificates_partial (st : St) (syms : Option (List (List Nat))) (cs : List Cert)
    (hb : st.bt = false) (hl : st.lvl = 1) :
    verifyCerts st syms cs = some (cs.any (fun c => !c.ok), []) := by
  have hi : ∀ at_ f as, logAt st .info at_ syms f as = some [] :=
    fun at_ f as => logAt_quiet _ _ _ _ _ _ hb (by rw [hl]; decide)
  have hw : ∀ at_ f as, logAt st .warn at_ syms f as = some [] :=
    fun at_ f as => logAt_quiet _ _ _ _ _ _ hb (by rw [hl]; decide)
  have hc : checkLoop st syms cs = some (cs.any (fun c => !c.ok), []) := by
    induction cs with
    | nil => rfl
    | cons c cs ih =>
      simp only [checkLoop, hi, hw, ih, ite_self, List.any_cons, List.append_nil]
  simp only [verifyCerts, trust_quiet st syms (by omega), hc, Option.map_some, List.nil_append]

example : verifyCerts St.init none [⟨true, true⟩, ⟨false, false⟩] = some (true, []) := by decide

/-- C125 is false of the check of CA certificates: a pointer to an `X509_NAME` is printed with
`%s`.  With level INFO this is undefined for every certificate, with level WARN for every list in
which one does not verify. -/
theorem C125_certificates_false (st : St) (syms : Option (List (List Nat))) (cs : List Cert) :
    (3 ≤ st.lvl → cs ≠ [] → verifyCerts st syms cs = none) ∧
      (st.lvl = 2 → (∃ c ∈ cs, c.ok = false) → verifyCerts st syms cs = none) := by
  have bad : ∀ (s : Sev) (at_ : Site) (p q : List Nat), s.lvl ≤ st.lvl →
      logAt st s at_ syms [.lit p, .str, .lit q] [.other] = none := by
    intro s at_ p q h
    have h' : ¬ st.lvl < s.lvl := by omega
    have hr : ∀ m n, render (fmtOf s [.lit p, .str, .lit q]) [.text m, .num n, .other] = none := by
      intro m n
      simp only [fmtOf, List.cons_append, List.nil_append, render]
      cases strOf m <;> rfl
    simp only [logAt, estLog, if_neg h', hr]
  constructor
  · intro hl hne
    have hc : checkLoop st syms cs = none := by
      cases cs with
      | nil => exact absurd rfl hne
      | cons c cs => simp only [checkLoop, bad .info _ _ _ hl]
    unfold verifyCerts
    rw [hc]
    cases trustLoop st syms cs <;> rfl
  · intro hl hx
    have hi : ∀ at_ f as, logAt st .info at_ syms f as = some [] := by
      intro at_ f as
      have : st.lvl < Sev.lvl .info := by rw [hl]; decide
      simp [logAt, estLog, this]
    have hc : checkLoop st syms cs = none := by
      induction cs with
      | nil => obtain ⟨c, h, _⟩ := hx; cases h
      | cons c cs ih =>
        simp only [checkLoop, hi]
        cases hok : c.ok with
        | false =>
          simp only [Bool.false_eq_true, if_false, bad .warn _ _ _ (by rw [hl]; decide)]
        | true =>
          have : ∃ c ∈ cs, c.ok = false := by
            obtain ⟨d, hd, hf⟩ := hx
            rcases List.mem_cons.mp hd with rfl | hd
            · rw [hok] at hf; cases hf
            · exact ⟨d, hd, hf⟩
          simp only [if_true, ih this]
    unfold verifyCerts
    rw [hc]
    cases trustLoop st syms cs <;> rfl

example : (verifyCerts ⟨none, 1, false, none, none⟩ none [⟨true, true⟩]).isSome = true ∧
    verifyCerts ⟨none, 3, false, none, none⟩ none [⟨true, true⟩] = none := by decide

end Verif.Log
