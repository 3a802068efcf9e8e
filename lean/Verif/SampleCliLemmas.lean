import Verif.SampleCliSpec

/-!
# Ways through a program

What it means that a program can make certain calls, get certain answers and end
in a certain way, and tools to reason about all ways through a program.
-/
namespace Verif.SampleCli

/-- The calls that a program makes when it gets these answers, and its end; none if
there are too few answers. -/
def play {α : Type} : Prog α → List Ans → Option (List Ev × End α)
  | .ret a, [] => some ([], .ret a)
  | .exit n, [] => some ([], .exit n)
  | .ub, [] => some ([], .ub)
  | .busy, [] => some ([], .busy)
  | .ask c k, a :: as => (play (k a) as).map fun r => (⟨c, a⟩ :: r.1, r.2)
  | _, _ => none

theorem can_play {α : Type} : ∀ (p : Prog α) (as : List Ans) (t : List Ev) (e : End α),
    play p as = some (t, e) → Can p t e := by
  intro p
  induction p with
  | ret a => intro as t e h; cases as <;> simp [play] at h; simp [Can, h.1, ← h.2]
  | exit a => intro as t e h; cases as <;> simp [play] at h; simp [Can, h.1, ← h.2]
  | ub => intro as t e h; cases as <;> simp [play] at h; simp [Can, h.1, ← h.2]
  | busy => intro as t e h; cases as <;> simp [play] at h; simp [Can, h.1, ← h.2]
  | ask c k ih =>
    intro as t e h
    cases as with
    | nil => simp [play] at h
    | cons a as =>
      simp only [play, Option.map_eq_some_iff] at h
      obtain ⟨⟨t', e'⟩, h1, h2⟩ := h
      simp only [Prod.mk.injEq] at h2
      refine ⟨a, t', h2.1.symm, ?_⟩
      rw [← h2.2]
      exact ih a as t' e' h1

/-- The ends that end also what comes after. -/
def End.stops {α β : Type} : End α → Option (End β)
  | .ret _ => none
  | .exit n => some (.exit n)
  | .ub => some .ub
  | .busy => some .busy

theorem can_bind {α β : Type} : ∀ (p : Prog α) (f : α → Prog β) (t : List Ev) (e : End β),
    Can (p.bind f) t e →
    (∃ a t1 t2, t = t1 ++ t2 ∧ Can p t1 (.ret a) ∧ Can (f a) t2 e) ∨
    (∃ x : End α, x.stops = some e ∧ Can p t x) := by
  intro p f
  induction p with
  | ret a => intro t e h; exact .inl ⟨a, [], t, rfl, ⟨rfl, rfl⟩, h⟩
  | exit n => intro t e h; exact .inr ⟨.exit n, by simp [Prog.bind, Can] at h; simp [End.stops, h.2], by simp [Prog.bind, Can] at h; simp [Can, h.1]⟩
  | ub => intro t e h; exact .inr ⟨.ub, by simp [Prog.bind, Can] at h; simp [End.stops, h.2], by simp [Prog.bind, Can] at h; simp [Can, h.1]⟩
  | busy => intro t e h; exact .inr ⟨.busy, by simp [Prog.bind, Can] at h; simp [End.stops, h.2], by simp [Prog.bind, Can] at h; simp [Can, h.1]⟩
  | ask c k ih =>
    intro t e h
    obtain ⟨a, t', rfl, h⟩ := h
    rcases ih a t' e h with ⟨b, t1, t2, rfl, h1, h2⟩ | ⟨x, h1, h2⟩
    · exact .inl ⟨b, ⟨c, a⟩ :: t1, t2, rfl, ⟨a, t1, rfl, h1⟩, h2⟩
    · exact .inr ⟨x, h1, a, t', rfl, h2⟩

theorem stops_exit {α β : Type} {x : End α} {n : Nat} (h : (x.stops : Option (End β)) = some (.exit n)) : x = .exit n := by
  cases x <;> simp [End.stops] at h; simp [h]

theorem stops_ub {α β : Type} {x : End α} (h : (x.stops : Option (End β)) = some .ub) : x = .ub := by
  cases x <;> simp [End.stops] at h; rfl

theorem stops_busy {α β : Type} {x : End α} (h : (x.stops : Option (End β)) = some .busy) : x = .busy := by
  cases x <;> simp [End.stops] at h; rfl

theorem stops_ret {α β : Type} {x : End α} {b : β} : ¬ (x.stops : Option (End β)) = some (.ret b) := by
  cases x <;> simp [End.stops]

/-! ## All calls of a program -/

/-- Every call the program can make satisfies `S`. -/
def Only {α : Type} (S : Call → Prop) : Prog α → Prop
  | .ask c k => S c ∧ ∀ a, Only S (k a)
  | _ => True

theorem only_can {α : Type} (S : Call → Prop) : ∀ (p : Prog α) (t : List Ev) (e : End α), Only S p → Can p t e →
    ∀ x ∈ t, S x.call := by
  intro p
  induction p with
  | ret a => intro t e _ h; simp [h.1]
  | exit n => intro t e _ h; simp [h.1]
  | ub => intro t e _ h; simp [h.1]
  | busy => intro t e _ h; simp [h.1]
  | ask c k ih =>
    intro t e ho h
    obtain ⟨a, t', rfl, h⟩ := h
    intro x hx
    rcases List.mem_cons.1 hx with rfl | hx
    · exact ho.1
    · exact ih a t' e (ho.2 a) h x hx

theorem only_bind {α β : Type} (S : Call → Prop) : ∀ (p : Prog α) (f : α → Prog β), Only S p → (∀ a, Only S (f a)) →
    Only S (p.bind f) := by
  intro p f
  induction p with
  | ret a => intro _ h; exact h a
  | exit n => intro _ _; trivial
  | ub => intro _ _; trivial
  | busy => intro _ _; trivial
  | ask c k ih => intro ho h; exact ⟨ho.1, fun a => ih a (ho.2 a) h⟩

/-! ## Statements about a call and what came before -/

/-- Every call of the program is fine after what came before it, `h` before the
program began; and so is the result; `U` holds when something undefined is done, `B`
when it keeps going round a loop. -/
def Safe {α : Type} (Ok : List Ev → Ev → Prop) (U : List Ev → Prop) (B : Prop) (Q : α → List Ev → Prop) :
    Prog α → List Ev → Prop
  | .ret a, h => Q a h
  | .exit _, _ => True
  | .ub, h => U h
  | .busy, _ => B
  | .ask c k, h => ∀ a, Ok h ⟨c, a⟩ ∧ Safe Ok U B Q (k a) (h ++ [⟨c, a⟩])

theorem safe_can {α : Type} (Ok : List Ev → Ev → Prop) (U : List Ev → Prop) (B : Prop) (Q : α → List Ev → Prop) :
    ∀ (p : Prog α) (h t : List Ev) (e : End α), Safe Ok U B Q p h → Can p t e →
    (∀ a x b, t = a ++ x :: b → Ok (h ++ a) x) ∧ (∀ r, e = .ret r → Q r (h ++ t)) ∧
    (e = .ub → U (h ++ t)) ∧ (e = .busy → B) := by
  intro p
  induction p with
  | ret a =>
    intro h t e hs hc
    obtain ⟨rfl, rfl⟩ := hc
    refine ⟨by intro a x b hh; simp at hh, ?_, by simp, by simp⟩
    intro r hr
    cases hr
    rw [List.append_nil]
    exact hs
  | exit n =>
    intro h t e hs hc
    obtain ⟨rfl, rfl⟩ := hc
    exact ⟨by intro a x b hh; simp at hh, by simp, by simp, by simp⟩
  | ub =>
    intro h t e hs hc
    obtain ⟨rfl, rfl⟩ := hc
    exact ⟨by intro a x b hh; simp at hh, by simp, by intro _; rw [List.append_nil]; exact hs, by simp⟩
  | busy =>
    intro h t e hs hc
    obtain ⟨rfl, rfl⟩ := hc
    exact ⟨by intro a x b hh; simp at hh, by simp, by simp, fun _ => hs⟩
  | ask c k ih =>
    intro h t e hs hc
    obtain ⟨a, t', rfl, hc⟩ := hc
    have hi := ih a (h ++ [⟨c, a⟩]) t' e (hs a).2 hc
    rw [List.append_assoc] at hi
    refine ⟨?_, hi.2⟩
    intro l x r hh
    cases l with
    | nil =>
      simp only [List.nil_append, List.cons.injEq] at hh
      rw [← hh.1, List.append_nil]
      exact (hs a).1
    | cons y l =>
      simp only [List.cons_append, List.cons.injEq] at hh
      have := hi.1 l x r hh.2
      rw [← hh.1]
      simpa using this

theorem safe_bind {α β : Type} {Ok : List Ev → Ev → Prop} {U : List Ev → Prop} {B : Prop}
    (Q : α → List Ev → Prop) {R : β → List Ev → Prop} :
    ∀ (p : Prog α) (f : α → Prog β) (h : List Ev), Safe Ok U B Q p h → (∀ a h', Q a h' → Safe Ok U B R (f a) h') →
    Safe Ok U B R (p.bind f) h := by
  intro p f
  induction p with
  | ret a => intro h hp hf; exact hf a h hp
  | exit n => intro h _ _; trivial
  | ub => intro h hp _; exact hp
  | busy => intro h hp _; exact hp
  | ask c k ih => intro h hp hf a; exact ⟨(hp a).1, ih a _ (hp a).2 hf⟩

theorem safe_mono {α : Type} {Ok : List Ev → Ev → Prop} {U : List Ev → Prop} {B : Prop} (Q R : α → List Ev → Prop) :
    ∀ (p : Prog α) (h : List Ev), Safe Ok U B Q p h → (∀ a h', Q a h' → R a h') → Safe Ok U B R p h := by
  intro p
  induction p with
  | ret a => intro h hp hf; exact hf a h hp
  | exit n => intro h _ _; trivial
  | ub => intro h hp _; exact hp
  | busy => intro h hp _; exact hp
  | ask c k ih => intro h hp hf a; exact ⟨(hp a).1, ih a _ (hp a).2 hf⟩

end Verif.SampleCli
