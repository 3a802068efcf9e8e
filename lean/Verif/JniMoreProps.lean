import Verif.JniProps

/-!
# C117: requests the library refuses

Two further facts about the Java binding: a request that the library refuses before it sends anything
never looks like a success, and a missing array is undefined.
-/
namespace Verif.Jni
open ClientMem

theorem bind_inv {α β : Type} {m : Mem α} {f : α → Mem β} {ok : Nat → Bool} {hp : Heap} {r : β × Heap}
    (h : (m >>= f) ok hp = some r) : ∃ a hp1, m ok hp = some (a, hp1) ∧ f a ok hp1 = some r := by
  cases hm : m ok hp with
  | none => simp [Bind.bind, hm] at h
  | some x =>
    refine ⟨x.1, x.2, rfl, ?_⟩
    simpa [Bind.bind, hm] using h

/-- If all the steps went through, each of them did. -/
theorem steps_inv (A B : List Stage) (s : Stage) {ok : Nat → Bool} {l l' : Loc} {hp hp' : Heap}
    (h : steps (A ++ s :: B) l ok hp = some ((none, l'), hp')) :
    ∃ l1 l2 hp1 hp2, s l1 ok hp1 = some ((none, l2), hp2) := by
  induction A generalizing l hp with
  | nil =>
    simp only [List.nil_append, steps] at h
    obtain ⟨⟨t, l2⟩, hp2, h1, h2⟩ := bind_inv h
    cases t with
    | some t => simp [pure] at h2
    | none => exact ⟨_, _, _, _, h1⟩
  | cons a A ih =>
    simp only [List.cons_append, steps] at h
    obtain ⟨⟨t, l2⟩, hp2, h1, h2⟩ := bind_inv h
    cases t with
    | some t => simp [pure] at h2
    | none => exact ih h2

theorem enrollAnswer_refused {r : EstErr} (hr : r ≠ .none) {ok : Nat → Bool} {l l' : Loc} {hp hp' : Heap} :
    enrollAnswer r l ok hp ≠ some ((none, l'), hp') := by
  cases r <;> simp_all [enrollAnswer, stop, pure]

/-- **C117**: an enrolment that the library refuses before it sends anything (the key does not fit the request, or
the like) ends with an exception, whatever else happens. -/
theorem C117_refused_request (ok : Nat → Bool) (m m' : Nat) (md : Mode) (reenroll : Bool) (a : Args) (w : World)
    (hp hp' : Heap) (o : Out) (hc : w.check ≠ .none) (h : enroll m m' md reenroll a w ok hp = some (o, hp')) :
    o.thrown ≠ none := by
  unfold enroll at h
  split at h
  · simp [pure] at h
    rw [← h.1]
    simp
  · intro ho
    unfold sendEnroll at h
    obtain ⟨⟨t, l⟩, hp1, h1, h⟩ := bind_inv h
    obtain ⟨_, hp2, _, h⟩ := bind_inv h
    simp [pure] at h
    rw [← h.1] at ho
    simp only [finish] at ho
    subst ho
    unfold enrollSteps at h1
    obtain ⟨l1, l2, hq, hq', hs⟩ := steps_inv _ _ _ h1
    unfold request at hs
    cases hcx : l1.ctx with
    | none => simp only [hcx] at hs; cases hs
    | some c =>
      simp only [hcx] at hs
      obtain ⟨_, hq1, _, hs⟩ := bind_inv hs
      obtain ⟨⟨r, c'⟩, hq2, ha, hs⟩ := bind_inv hs
      unfold ask at ha
      rw [if_pos hc] at ha
      simp [pure] at ha
      obtain ⟨⟨rfl, _⟩, _⟩ := ha
      exact enrollAnswer_refused hc hs

example : ((enroll 40 40 .http false exArgs { exWorld with check := .clientInvalidKey } (fun _ => true) ClientMem.exHeap).map fun x =>
      (x.1.ret, x.1.thrown.isSome, x.1.answer)) = some (-1, true, some .clientInvalidKey) := by decide +kernel

/-- **C117 is false**: a missing key pair or a missing array for the result is not noticed when a signing request is
made. -/
theorem C117_csr_null_array_false :
    createCsr 40 40 { exCsrArgs with keypair := none } exCsrWorld (fun _ => true) ClientMem.exHeap = none ∧
    createCsr 40 40 { exCsrArgs with room := none } exCsrWorld (fun _ => true) ClientMem.exHeap = none := by
  constructor <;> decide +kernel

end Verif.Jni
