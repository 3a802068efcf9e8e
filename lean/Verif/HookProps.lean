import Verif.HookSpec
/-!
# Claim C138: callbacks and data belong to the context they were given for
-/
namespace Verif.Hook

private theorem run_last {α : Type} (π : St → α) (f : Op → Option α)
    (hs : ∀ s o, π (step s o).1 = (f o).getD (π s)) (h : List Op) :
    ∀ s, π (run s h) = ((h.filterMap f).getLast?).getD (π s) := by
  induction h with
  | nil => intro s; rfl
  | cons o r ih =>
    intro s
    rw [run, ih, hs, List.filterMap_cons]
    cases hf : f o with
    | none => rfl
    | some a => cases hg : (r.filterMap f).getLast? <;> simp [List.getLast?_cons, hg]

private theorem ev_step (e : Ev) (c : Nat) (s : St) (o : Op) :
    ((step s o).1.ctx c).event e = (o.forEvent e c).getD ((s.ctx c).event e) := by
  cases o with
  | onEvent e' ctx cb =>
    cases ctx with
    | none => cases e' <;> rfl
    | some c' =>
      by_cases hc : c = c'
      · subst hc
        cases e' <;> cases e <;>
          simp [step, setEnrollReq, setEnrollRsp, setAuthResult, setEndpoint, St.put, Ctx.event,
            Op.forEvent]
      · cases e' <;> cases e <;>
          simp [step, setEnrollReq, setEnrollRsp, setAuthResult, setEndpoint, St.put, Ctx.event,
            Op.forEvent, hc, Ne.symm hc]
  | onBrski b ctx cb =>
    cases ctx with
    | none => cases b <;> rfl
    | some c' =>
      cases cb with
      | none => cases b <;> rfl
      | some f =>
        by_cases hc : c = c' <;> cases b <;> cases e <;>
          simp [step, setVoucherReq, setVoucherStatus, setEnrollStatus, St.put, Ctx.event,
            Op.forEvent, hc]
  | setData ctx d =>
    cases ctx with
    | none => rfl
    | some c' =>
      by_cases hc : c = c' <;> cases e <;>
        simp [step, setExData, St.put, Ctx.event, Op.forEvent, hc]
  | _ => rfl

private theorem br_step (b : Br) (c : Nat) (s : St) (o : Op) :
    ((step s o).1.ctx c).brski b = (o.forBrski b c).getD ((s.ctx c).brski b) := by
  cases o with
  | onEvent e' ctx cb =>
    cases ctx with
    | none => cases e' <;> rfl
    | some c' =>
      by_cases hc : c = c' <;> cases e' <;> cases b <;>
        simp [step, setEnrollReq, setEnrollRsp, setAuthResult, setEndpoint, St.put, Ctx.brski,
          Op.forBrski, hc]
  | onBrski b' ctx cb =>
    cases ctx with
    | none => cases b' <;> rfl
    | some c' =>
      cases cb with
      | none => cases b' <;> rfl
      | some f =>
        by_cases hc : c = c'
        · subst hc
          cases b' <;> cases b <;>
            simp [step, setVoucherReq, setVoucherStatus, setEnrollStatus, St.put, Ctx.brski,
              Op.forBrski]
        · cases b' <;> cases b <;>
            simp [step, setVoucherReq, setVoucherStatus, setEnrollStatus, St.put, Ctx.brski,
              Op.forBrski, hc, Ne.symm hc]
  | setData ctx d =>
    cases ctx with
    | none => rfl
    | some c' =>
      by_cases hc : c = c' <;> cases b <;>
        simp [step, setExData, St.put, Ctx.brski, Op.forBrski, hc]
  | _ => rfl

private theorem ex_step (c : Nat) (s : St) (o : Op) :
    ((step s o).1.ctx c).exData = (o.forData c).getD ((s.ctx c).exData) := by
  cases o with
  | onEvent e' ctx cb =>
    cases ctx with
    | none => cases e' <;> rfl
    | some c' =>
      by_cases hc : c = c' <;> cases e' <;>
        simp [step, setEnrollReq, setEnrollRsp, setAuthResult, setEndpoint, St.put, Op.forData, hc]
  | onBrski b' ctx cb =>
    cases ctx with
    | none => cases b' <;> rfl
    | some c' =>
      cases cb with
      | none => cases b' <;> rfl
      | some f =>
        by_cases hc : c = c' <;> cases b' <;>
          simp [step, setVoucherReq, setVoucherStatus, setEnrollStatus, St.put, Op.forData, hc]
  | setData ctx d =>
    cases ctx with
    | none => rfl
    | some c' =>
      by_cases hc : c = c'
      · subst hc; simp [step, setExData, St.put, Op.forData]
      · simp [step, setExData, St.put, Op.forData, hc, Ne.symm hc]
  | _ => rfl

private theorem err_step (s : St) (o : Op) :
    (step s o).1.err = (o.forError).getD s.err := by
  cases o with
  | onEvent e' ctx cb => cases ctx <;> cases e' <;> rfl
  | onBrski b' ctx cb => cases ctx <;> cases cb <;> cases b' <;> rfl
  | setData ctx d => cases ctx <;> rfl
  | _ => rfl

private theorem lvl_step (s : St) (o : Op) :
    (step s o).1.level
      = (match o with | .logger l => some l | _ => none : Option Nat).getD s.level := by
  cases o with
  | onEvent e' ctx cb => cases ctx <;> cases e' <;> rfl
  | onBrski b' ctx cb => cases ctx <;> cases cb <;> cases b' <;> rfl
  | setData ctx d => cases ctx <;> rfl
  | _ => rfl

private theorem ev_run (e : Ev) (c : Nat) (h : List Op) :
    ((run .init h).ctx c).event e = latest (Op.forEvent e c) h := by
  rw [run_last (fun s => (s.ctx c).event e) (Op.forEvent e c) (ev_step e c) h .init]
  cases e <;> rfl

private theorem br_run (b : Br) (c : Nat) (h : List Op) :
    ((run .init h).ctx c).brski b = latest (Op.forBrski b c) h := by
  rw [run_last (fun s => (s.ctx c).brski b) (Op.forBrski b c) (br_step b c) h .init]
  cases b <;> rfl

private theorem ex_run (c : Nat) (h : List Op) :
    ((run .init h).ctx c).exData = latest (Op.forData c) h :=
  run_last (fun s => (s.ctx c).exData) (Op.forData c) (ex_step c) h .init

private theorem err_run (h : List Op) : (run .init h).err = latest Op.forError h :=
  run_last (fun s => s.err) Op.forError err_step h .init

private theorem lvl_run (h : List Op) : (run .init h).level = latestLevel h :=
  run_last (fun s => s.level) _ lvl_step h .init

/-- When an event occurs in a context, the callback registered last for it in this very context is
called, once; if there never was one, or the last registration was of a null pointer, none is. -/
theorem C138_event (h : List Op) (e : Ev) (c : Nat) :
    (step (run .init h) (.event e (some c))).2
      = (match latest (Op.forEvent e c) h with
         | some cb => [Out.called cb]
         | none => []) := by
  rw [← ev_run]
  show invoke _ = _
  cases ((run .init h).ctx c).event e <;> rfl

example : (step (run .init [.onEvent .enrollReq (some 0) (some 70),
      .onEvent .enrollReq (some 1) (some 71), .onEvent .enrollRsp (some 0) (some 72),
      .onEvent .enrollReq (some 0) (some 73)]) (.event .enrollReq (some 0))).2
    = [.called 73] := by decide

example : (step (run .init [.onEvent .endpoint (some 0) (some 70),
      .onEvent .endpoint (some 0) none]) (.event .endpoint (some 0))).2 = [] := by decide

/-- A BRSKI request is given to the handler registered last in its context; while there is none,
it is answered with an error that says so, and the error callback is told. -/
theorem C138_brski (h : List Op) (b : Br) (c : Nat) :
    (step (run .init h) (.request b c)).2
      = (match latest (Op.forBrski b c) h with
         | some f => [Out.called f]
         | none => (step (run .init h) .error).2 ++ [.rc .nullCallback]) := by
  rw [← br_run]
  show asks _ _ _ = _
  unfold asks
  cases ((run .init h).ctx c).brski b <;> rfl

example : (step (run .init [.onError (some 9)]) (.request .voucherReq 0)).2
    = [.called 9, .rc .nullCallback] := by decide

/-- A BRSKI handler cannot be taken away again: once one is registered there is one for good,
whatever is called afterwards. -/
theorem C138_brski_stays (h k : List Op) (b : Br) (c f : Nat)
    (hr : .onBrski b (some c) (some f) ∈ h) :
    ∃ g, (step (run .init (h ++ k)) (.request b c)).2 = [.called g] := by
  rw [C138_brski]
  have hm : some f ∈ (h ++ k).filterMap (Op.forBrski b c) := by
    rw [List.mem_filterMap]
    exact ⟨_, List.mem_append_left _ hr, by simp [Op.forBrski]⟩
  have hall : ∀ x ∈ (h ++ k).filterMap (Op.forBrski b c), ∃ g, x = some g := by
    intro x hx
    rw [List.mem_filterMap] at hx
    obtain ⟨o, _, ho⟩ := hx
    unfold Op.forBrski at ho
    split at ho
    · split at ho
      · exact ⟨_, (Option.some.inj ho).symm⟩
      · cases ho
    · cases ho
  have hne : (h ++ k).filterMap (Op.forBrski b c) ≠ [] := List.ne_nil_of_mem hm
  obtain ⟨g, hg⟩ := hall _ (List.getLast_mem hne)
  refine ⟨g, ?_⟩
  have : latest (Op.forBrski b c) (h ++ k) = some g := by
    unfold latest
    rw [List.getLast?_eq_some_getLast hne, Option.getD_some, hg]
  rw [this]

example : Op.onBrski .enrollStatus (some 3) (some 8)
    ∈ [Op.error, .onBrski .enrollStatus (some 3) (some 8)] := by decide

/-- Asking for that is refused, and so is a registration without a context; the answers differ,
the error callback hears of both, and nothing changes. -/
theorem C138_brski_refused (h : List Op) (b : Br) (c : Nat) (cb : Option Nat) :
    step (run .init h) (.onBrski b (some c) none)
        = (run .init h, (step (run .init h) .error).2 ++ [.rc .invalidParameters])
      ∧ step (run .init h) (.onBrski b none cb)
        = (run .init h, (step (run .init h) .error).2 ++ [.rc .noCtx]) := by
  cases b <;> exact ⟨rfl, rfl⟩

/-- A registration that is in order is answered so and calls nothing. -/
theorem C138_brski_taken (h : List Op) (b : Br) (c f : Nat) :
    (step (run .init h) (.onBrski b (some c) (some f))).2 = [.rc .none_] := by
  cases b <;> rfl

/-- An event callback given without a context is dropped.  The function returns nothing: only the
error callback hears of it.  With a context nobody is called. -/
theorem C138_event_registered (h : List Op) (e : Ev) (c : Nat) (cb : Option Nat) :
    step (run .init h) (.onEvent e none cb) = (run .init h, (step (run .init h) .error).2)
      ∧ (step (run .init h) (.onEvent e (some c) cb)).2 = []
      ∧ (step (run .init h) (.event e none)).2 = [] := by
  cases e <;> exact ⟨rfl, rfl, rfl⟩

/-- An error is told to the error callback registered last, whatever context it arises in, as long
as the level of logging lets errors through. -/
theorem C138_error (h : List Op) :
    (step (run .init h) .error).2
      = (match latest Op.forError h, latestLevel h with
         | some cb, _ + 1 => [Out.called cb]
         | _, _ => []) := by
  rw [← err_run, ← lvl_run]
  show logErr _ = _
  unfold logErr
  cases (run .init h).err <;> cases hl : (run .init h).level <;> simp [invoke]

example : (step (run .init [.onError (some 9)]) .error).2 = [.called 9] := by decide

/-- So a program that turns the logger off by asking for level 0 turns its error callback off as
well. -/
theorem C138_silent (h : List Op) (cb : Nat) :
    (step (run .init (h ++ [.onError (some cb), .logger 0])) .error).2 = [] := by
  rw [C138_error]
  have : latestLevel (h ++ [.onError (some cb), .logger 0]) = 0 := by
    simp [latestLevel, List.filterMap_append]
  rw [this]
  cases latest Op.forError (h ++ [.onError (some cb), .logger 0]) <;> rfl

/-- The data of a context is what was set last for it, a null pointer if nothing was or there is no
context. -/
theorem C138_data (h : List Op) (c : Nat) :
    step (run .init h) (.getData (some c))
        = (run .init h, [.data (latest (Op.forData c) h)])
      ∧ step (run .init h) (.getData none) = (run .init h, [.data none]) := by
  rw [← ex_run]
  exact ⟨rfl, rfl⟩

example : (step (run .init [.setData (some 0) (some 5), .setData (some 1) (some 6)])
    (.getData (some 0))).2 = [.data (some 5)] := by decide

/-- Setting it is refused only without a context, and then nothing changes. -/
theorem C138_data_set (h : List Op) (c : Nat) (d : Option Nat) :
    (step (run .init h) (.setData (some c) d)).2 = [.rc .none_]
      ∧ step (run .init h) (.setData none d) = (run .init h, [.rc .noCtx]) := ⟨rfl, rfl⟩

private theorem filterMap_drop (f : Op → Option (Option Nat)) (q : Op → Bool) (h : List Op)
    (hf : ∀ o, q o = false → f o = none) :
    (h.filter q).filterMap f = h.filterMap f := by
  induction h with
  | nil => rfl
  | cons o r ih =>
    cases hq : q o with
    | true => rw [List.filter_cons_of_pos hq, List.filterMap_cons, List.filterMap_cons, ih]
    | false =>
      rw [List.filter_cons_of_neg (by simp [hq]), List.filterMap_cons, hf o hq, ih]

/-- Contexts do not get in each other's way: what a context does when something happens in it is
what it would do had nothing been called but what concerns it. -/
theorem C138_separate (h : List Op) (c : Nat) (e : Ev) :
    (step (run .init h) (.event e (some c))).2
        = (step (run .init (h.filter (Op.about c))) (.event e (some c))).2
      ∧ (step (run .init h) (.getData (some c))).2
        = (step (run .init (h.filter (Op.about c))) (.getData (some c))).2 := by
  have he : ∀ o : Op, o.about c = false → o.forEvent e c = none := by
    intro o ho
    cases o with
    | onEvent e' ctx cb =>
      cases ctx with
      | none => rfl
      | some c' =>
        have : c' ≠ c := by
          intro hc; subst hc; simp [Op.about] at ho
        simp [Op.forEvent, this]
    | _ => rfl
  have hd : ∀ o : Op, o.about c = false → o.forData c = none := by
    intro o ho
    cases o with
    | setData ctx d =>
      cases ctx with
      | none => rfl
      | some c' =>
        have : c' ≠ c := by
          intro hc; subst hc; simp [Op.about] at ho
        simp [Op.forData, this]
    | _ => rfl
  constructor
  · rw [C138_event, C138_event]
    unfold latest
    rw [filterMap_drop _ _ _ he]
  · rw [(C138_data h c).1, (C138_data _ c).1]
    unfold latest
    rw [filterMap_drop _ _ _ hd]

example : [Op.setData (some 1) (some 4), .onEvent .endpoint (some 0) (some 7), .onError none].filter
    (Op.about 0) = [.onEvent .endpoint (some 0) (some 7)] := by decide

/-- What happens, as opposed to what is registered, changes nothing: an event, a request, an error,
a look at the data. -/
theorem C138_passive (h : List Op) (e : Ev) (ctx : Option Nat) (b : Br) (c : Nat) :
    (step (run .init h) (.event e ctx)).1 = run .init h
      ∧ (step (run .init h) (.request b c)).1 = run .init h
      ∧ (step (run .init h) .error).1 = run .init h
      ∧ (step (run .init h) (.getData ctx)).1 = run .init h := ⟨rfl, rfl, rfl, rfl⟩

/-- Each callback runs on behalf of somebody who registered it: whatever is called at the end of a
history was handed over as a callback somewhere in it. -/
theorem C138_no_stranger (h : List Op) (o : Op) (cb : Nat)
    (hc : .called cb ∈ (step (run .init h) o).2) :
    .onError (some cb) ∈ h ∨ (∃ e c, .onEvent e (some c) (some cb) ∈ h)
      ∨ ∃ b c, .onBrski b (some c) (some cb) ∈ h := by
  have lt : ∀ (f : Op → Option (Option Nat)), latest f h = some cb → ∃ x ∈ h, f x = some (some cb) := by
    intro f hl
    unfold latest at hl
    cases hg : (h.filterMap f).getLast? with
    | none => rw [hg] at hl; cases hl
    | some a =>
      rw [hg] at hl
      have ha : a = some cb := hl
      have := List.mem_of_getLast? hg
      rw [List.mem_filterMap] at this
      obtain ⟨x, hx, hfx⟩ := this
      exact ⟨x, hx, by rw [hfx, ha]⟩
  have herr : .called cb ∈ (step (run .init h) .error).2 → .onError (some cb) ∈ h := by
    intro hm
    rw [C138_error] at hm
    split at hm
    · rename_i cb' _ heq _
      have : cb = cb' := by simpa using hm
      subst this
      obtain ⟨x, hx, hfx⟩ := lt _ heq
      cases x <;> simp [Op.forError] at hfx
      subst hfx; exact hx
    · cases hm
  have hlog : .called cb ∈ logErr (run .init h) → .onError (some cb) ∈ h := herr
  cases o with
  | logger l => simp [step, initLogger] at hc
  | onError x => simp [step, setErr] at hc
  | onEvent e ctx x =>
    cases ctx with
    | some c => rw [(C138_event_registered h e c x).2.1] at hc; cases hc
    | none => rw [(C138_event_registered h e 0 x).1] at hc; exact Or.inl (herr hc)
  | onBrski b ctx x =>
    cases ctx with
    | none =>
      rw [(C138_brski_refused h b 0 x).2] at hc
      exact Or.inl (herr (by simpa using hc))
    | some c =>
      cases x with
      | none =>
        rw [(C138_brski_refused h b c none).1] at hc
        exact Or.inl (herr (by simpa using hc))
      | some f => rw [C138_brski_taken] at hc; simp at hc
  | setData ctx d => cases ctx <;> simp [step, setExData] at hc
  | getData ctx => cases ctx <;> simp [step, getExData] at hc
  | event e ctx =>
    cases ctx with
    | none => cases hc
    | some c =>
      rw [C138_event] at hc
      split at hc
      · rename_i cb' heq
        have : cb = cb' := by simpa using hc
        subst this
        obtain ⟨x, hx, hfx⟩ := lt _ heq
        refine Or.inr (Or.inl ⟨e, c, ?_⟩)
        unfold Op.forEvent at hfx
        split at hfx
        · split at hfx
          · rename_i hh
            obtain ⟨rfl, rfl⟩ := hh
            cases hfx; exact hx
          · cases hfx
        · cases hfx
      · cases hc
  | request b c =>
    rw [C138_brski] at hc
    split at hc
    · rename_i cb' heq
      have : cb = cb' := by simpa using hc
      subst this
      obtain ⟨x, hx, hfx⟩ := lt _ heq
      refine Or.inr (Or.inr ⟨b, c, ?_⟩)
      unfold Op.forBrski at hfx
      split at hfx
      · split at hfx
        · rename_i hh
          obtain ⟨rfl, rfl⟩ := hh
          cases hfx; exact hx
        · cases hfx
      · cases hfx
    · exact Or.inl (herr (by simpa using hc))
  | error => exact Or.inl (herr hc)

example : Out.called 9
    ∈ (step (run .init [.onError (some 9)]) (.onBrski .voucherReq (some 0) none)).2 := by decide

end Verif.Hook
