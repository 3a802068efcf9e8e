import Verif.ServerMemModel
import Verif.ClientMemLemmas

/-!
# The server's functions and the blocks they own
-/
namespace Verif.ServerMem
open Verif.ClientMem

variable {ok : Nat → Bool} {G : Prop} {α β : Type}

theorem last_opt {X D : List Nat} (p : Option Nat) (h : X.Perm (p.toList ++ D)) :
    Spec ok G X (free p) (fun _ => D) (fun _ => True) := by
  cases p with
  | none => exact spec_pure h trivial
  | some p => exact spec_perm h spec_last

theorem decode_spec (b : B64) (hG : G ∨ (AllOk ok ∧ b ≠ .refused)) :
    Spec ok G [] (decode b) (fun _ => []) (fun _ => True) := by
  unfold decode
  split
  · exact spec_pure (.refl _) trivial
  al
  · next p =>
    al
    · next q =>
      split
      · next h => exact spec_lose [q, p] (hG.resolve_right (fun x => x.2 h)) (.refl _) trivial
      · go
    · next hn => exact spec_lose [p] (hG.resolve_right (fun x => hn x.1)) (.refl _) trivial
  · go

theorem freeAll_spec (l : List Nat) :
    Spec ok G l (freeAll l) (fun _ => []) (fun _ => True) := by
  induction l with
  | nil => exact spec_pure (.refl _) trivial
  | cons p ps ih => exact spec_free (.refl _) ih

theorem freeEach_spec (l : List (Option Nat)) :
    Spec ok G (l.flatMap Option.toList) (freeEach l) (fun _ => []) (fun _ => True) := by
  induction l with
  | nil => exact spec_pure (.refl _) trivial
  | cons p ps ih => exact spec_free_opt (P' := ps.flatMap Option.toList) (.refl _) ih

theorem names_spec (n : Nat) : Spec ok G [] (names n) (fun _ => []) (fun _ => True) := by
  induction n with
  | zero => exact spec_pure (.refl _) trivial
  | succ n ih =>
    unfold names
    al
    · fr; exact ih
    · fr; exact ih

/-! ## Authentication -/

/-- The blocks of an `EST_HTTP_AUTH_HDR`. -/
def ahBlocks (a : Ah) : List Nat := a.self :: a.held.map (fun x => x.2)

/-- The same for a pointer. -/
def ahOpt (a : Option Ah) : List Nat := a.elim [] ahBlocks

theorem split_held (l : List (Field × Nat)) (f : Field) :
    (l.map (fun x => x.2)).Perm ((l.filter (fun x => x.1 ≠ f)).map (fun x => x.2) ++
      (l.filter (fun x => x.1 = f)).map (fun x => x.2)) := by
  induction l with
  | nil => exact .refl _
  | cons x l ih =>
    by_cases h : x.1 = f
    · rw [List.filter_cons_of_neg (by simp [h]), List.filter_cons_of_pos (by simp [h])]
      exact (ih.cons x.2).trans List.perm_middle.symm
    · rw [List.filter_cons_of_pos (by simp [h]), List.filter_cons_of_neg (by simp [h])]
      exact ih.cons x.2

theorem filter_absent {a : Ah} {f : Field} (h : a.has f = false) :
    a.held.filter (fun x => x.1 ≠ f) = a.held := by
  rw [List.filter_eq_self]
  intro x hx
  unfold Ah.has at h
  rw [List.any_eq_false] at h
  simpa using h x hx

theorem has_put_other (a : Ah) {f g : Field} (p : Option Nat) (h : g ≠ f) :
    (a.put f p).has g = a.has g := by
  have e : (a.held.filter (fun x => x.1 ≠ f)).any (fun x => x.1 = g) = a.held.any (fun x => x.1 = g) := by
    rw [Bool.eq_iff_iff, List.any_eq_true, List.any_eq_true]
    constructor
    · rintro ⟨x, hx, hg⟩
      exact ⟨x, (List.mem_filter.1 hx).1, hg⟩
    · rintro ⟨x, hx, hg⟩
      have hg' : x.1 = g := by simpa using hg
      exact ⟨x, List.mem_filter.2 ⟨hx, by simpa [hg'] using h⟩, hg⟩
  cases p with
  | none => exact e
  | some p =>
    show (((f, p) :: a.held.filter (fun x => x.1 ≠ f)).any (fun x => x.1 = g)) = _
    rw [List.any_cons, e]
    simp [Ne.symm h, Ah.has]

theorem setField_spec (a : Ah) (f : Field) (hG : G ∨ a.has f = false) :
    Spec ok G (ahBlocks a) (setField a f) ahBlocks
      (fun b => (∀ g, g ≠ f → b.has g = a.has g) ∧ (AllOk ok → b.has f = true)) := by
  have hs := split_held a.held f
  unfold setField
  al
  · next p =>
    have hr : (∀ g, g ≠ f → (a.put f (some p)).has g = a.has g) ∧
        (AllOk ok → (a.put f (some p)).has f = true) :=
      ⟨fun g hg => has_put_other a (some p) hg, fun _ => by simp [Ah.put, Ah.has]⟩
    rcases hG with hg | hn
    · refine spec_lose ((a.held.filter (fun x => x.1 = f)).map (fun x => x.2)) hg ?_ hr
      show (p :: a.self :: a.held.map (fun x => x.2)).Perm
        (a.self :: p :: (a.held.filter (fun x => x.1 ≠ f)).map (fun x => x.2) ++ _)
      exact (List.Perm.swap ..).trans ((hs.cons p).cons a.self)
    · refine spec_pure ?_ hr
      show (p :: a.self :: a.held.map (fun x => x.2)).Perm
        (a.self :: p :: (a.held.filter (fun x => x.1 ≠ f)).map (fun x => x.2))
      rw [filter_absent hn]
      exact .swap ..
  · next hn =>
    have hr : (∀ g, g ≠ f → (a.put f none).has g = a.has g) ∧
        (AllOk ok → (a.put f none).has f = true) :=
      ⟨fun g hg => has_put_other a none hg, fun h => absurd h hn⟩
    rcases hG with hg | hx
    · refine spec_lose ((a.held.filter (fun x => x.1 = f)).map (fun x => x.2)) hg ?_ hr
      exact hs.cons a.self
    · refine spec_pure ?_ hr
      show (a.self :: a.held.map (fun x => x.2)).Perm
        (a.self :: (a.held.filter (fun x => x.1 ≠ f)).map (fun x => x.2))
      rw [filter_absent hx]

theorem setFields_spec (a : Ah) (fs : List Field)
    (hG : G ∨ (fs.Nodup ∧ ∀ f ∈ fs, a.has f = false)) :
    Spec ok G (ahBlocks a) (setFields a fs) ahBlocks (fun _ => True) := by
  induction fs generalizing a with
  | nil => exact spec_pure (.refl _) trivial
  | cons f fs ih =>
    unfold setFields
    refine spec_call (setField_spec a f (hG.imp id (fun h => h.2 f (List.mem_cons_self ..))))
      (D := []) (by simp) ?_
    intro b hb
    rw [List.append_nil]
    refine ih b (hG.imp id (fun h => ⟨(List.nodup_cons.1 h.1).2, fun g hg => ?_⟩))
    rw [hb.1 g (fun e => (List.nodup_cons.1 h.1).1 (e ▸ hg))]
    exact h.2 g (List.mem_cons_of_mem _ hg)

theorem createAh_spec :
    Spec ok G [] createAh ahOpt (fun a => (∀ b, a = some b → b.held = []) ∧ (a = none → ¬ AllOk ok)) := by
  unfold createAh
  al
  · exact spec_pure (.refl _) ⟨(fun b hb => by cases hb; rfl), (fun h => by cases h)⟩
  · next hn => exact spec_pure (.refl _) ⟨(fun b hb => by cases hb), fun _ => hn⟩

theorem destroyAh_spec (a : Option Ah) :
    Spec ok G (ahOpt a) (destroyAh a) (fun _ => []) (fun _ => True) := by
  cases a with
  | none => exact spec_pure (.refl _) trivial
  | some a =>
    refine spec_call (freeAll_spec (a.held.map (fun x => x.2))) (D := [a.self])
      (List.perm_append_comm (l₁ := [a.self])) ?_
    intro _ _
    exact spec_last

/-- Headers whose handling loses nothing. -/
def HdrOk : Hdr → Prop
  | .basic dec _ => dec ≠ .refused
  | .digest fs => fs.Nodup
  | .token dec => dec ≠ .refused
  | _ => True

theorem parseBasic_spec (hok : AllOk ok) (a : Ah) (ha : a.held = []) (dec : B64) (text : Basic)
    (hG : G ∨ dec ≠ .refused) :
    Spec ok G (ahBlocks a) (parseBasic a dec text) (fun r => ahBlocks r.2) (fun _ => True) := by
  have hno : ∀ f, a.has f = false := by intro f; simp [Ah.has, ha]
  unfold parseBasic
  refine spec_call (decode_spec dec (hG.imp id (fun h => ⟨hok, h⟩))) (P := []) (D := ahBlocks a)
    (.refl _) ?_
  intro good _
  rw [List.nil_append]
  split
  · exact spec_pure (.refl _) trivial
  cases text with
  | noColon => exact spec_pure (.refl _) trivial
  | nothing => exact spec_pure (.refl _) trivial
  | password =>
    refine spec_call (setField_spec a .pwd (.inr (hno _))) (D := []) (by simp) ?_
    intro b _
    exact spec_pure (by simp) trivial
  | both =>
    refine spec_call (setField_spec a .user (.inr (hno _))) (D := []) (by simp) ?_
    intro b hb
    refine spec_call (setField_spec b .pwd (.inr ?_)) (D := []) (by simp) ?_
    · rw [hb.1 _ (by decide)]; exact hno _
    intro c _
    exact spec_pure (by simp) trivial

theorem parseDigest_spec (a : Ah) (ha : a.held = []) (fs : List Field) (hG : G ∨ fs.Nodup) :
    Spec ok G (ahBlocks a) (parseDigest a fs) (fun r => ahBlocks r.2) (fun _ => True) := by
  unfold parseDigest
  refine spec_call (setFields_spec a fs (hG.imp id (fun h => ⟨h, ?_⟩))) (D := []) (by simp) ?_
  · intro f _; simp [Ah.has, ha]
  intro b _
  exact spec_pure (by simp) trivial

theorem parseToken_spec (hok : AllOk ok) (a : Ah) (ha : a.held = []) (dec : B64)
    (hG : G ∨ dec ≠ .refused) :
    Spec ok G (ahBlocks a) (parseToken a dec) (fun r => ahBlocks r.2) (fun _ => True) := by
  unfold parseToken
  refine spec_call (decode_spec dec (hG.imp id (fun h => ⟨hok, h⟩))) (P := []) (D := ahBlocks a)
    (.refl _) ?_
  intro good _
  rw [List.nil_append]
  split
  · exact spec_pure (.refl _) trivial
  refine spec_call (setField_spec a .token (.inr (by simp [Ah.has, ha]))) (D := []) (by simp) ?_
  intro b _
  exact spec_pure (by simp) trivial

theorem parseHeader_spec (hok : AllOk ok) (h : Hdr) (hh : G ∨ HdrOk h) (a : Ah) (ha : a.held = []) :
    Spec ok G (ahBlocks a) (parseHeader h (some a)) (fun r => ahOpt r.2) (fun _ => True) := by
  cases h with
  | missing => exact spec_pure (.refl _) trivial
  | otherMode => exact spec_pure (.refl _) trivial
  | unknown => exact spec_use (by simp [ahBlocks]) (spec_pure (.refl _) trivial)
  | basic dec text =>
    refine spec_use (by simp [ahBlocks]) ?_
    refine spec_call (parseBasic_spec hok a ha dec text hh) (D := []) (by simp) ?_
    intro b _
    exact spec_pure (by simp [ahOpt]) trivial
  | digest fs =>
    refine spec_use (by simp [ahBlocks]) ?_
    refine spec_call (parseDigest_spec a ha fs hh) (D := []) (by simp) ?_
    intro b _
    exact spec_pure (by simp [ahOpt]) trivial
  | token dec =>
    refine spec_use (by simp [ahBlocks]) ?_
    refine spec_call (parseToken_spec hok a ha dec hh) (D := []) (by simp) ?_
    intro b _
    exact spec_pure (by simp [ahOpt]) trivial

theorem parseCsr_spec (parses : Bool) :
    Spec ok G [] (parseCsr parses) (fun r => r.toList)
      (fun r => (r ≠ none → parses = true) ∧ (r = none → parses = false ∨ ¬ AllOk ok)) := by
  unfold parseCsr
  al
  · next mem =>
    al
    · next b64 =>
      refine spec_call (Q := fun a => a.toList)
        (R := fun r => (r ≠ none → parses = true) ∧ (r = none → parses = false ∨ ¬ AllOk ok))
        (P := []) (D := [b64, mem]) (m := allocIf parses) ?_ (.refl _) ?_
      · cases parses with
        | false => exact spec_pure (.refl _) ⟨fun h => absurd rfl h, fun _ => .inl rfl⟩
        | true => exact spec_post (allocIf_spec true) (fun a h => ⟨.refl _, fun _ => rfl, h⟩)
      intro r hr
      refine spec_free (P' := mem :: r.toList) (by perm) ?_
      fr
      exact spec_pure (.refl _) hr
    · next hn => fr; exact spec_pure (.refl _) ⟨fun h => absurd rfl h, fun _ => .inr hn⟩
  · next hn => exact spec_pure (.refl _) ⟨fun h => absurd rfl h, fun _ => .inr hn⟩

theorem buildEca_spec (hok : AllOk ok) (fieldOk : Bool) (a : Ah) (ha : a.held = []) :
    Spec ok G (ahBlocks a) (buildEca fieldOk (some a)) (fun r => ahOpt r.2)
      (fun r => fieldOk = true → r.1 = .good) := by
  have hno : ∀ f, a.has f = false := by intro f; simp [Ah.has, ha]
  unfold buildEca
  refine spec_use (by simp [ahBlocks]) ?_
  split
  · next h => exact spec_pure (.refl _) (fun hf => by simp [hf] at h)
  refine spec_call (setField_spec a .user (.inr (hno _))) (D := []) (by simp) ?_
  intro b hb
  rw [List.append_nil]
  split
  · next h => exact absurd (hb.2 hok) (by simpa using h)
  refine spec_call (setField_spec b .pwd (.inr ?_)) (D := []) (by simp) ?_
  · rw [hb.1 _ (by decide)]; exact hno _
  intro c hc
  refine spec_pure (by simp [ahOpt]) (fun _ => ?_)
  rw [if_pos (hc.2 hok)]

/-- Whether a way of authentication looks at the CSR. -/
def Keeps : Try → Prop
  | .eca e _ => e.csr ≠ none
  | _ => False

/-- Whether authentication succeeds once the CSR has been parsed for it. -/
def Settled : Try → Prop
  | .eca e b => ∀ c, e.csr = some c → c.parses = true → c.result = .good ∧ e.fieldOk = true ∧ b = true
  | _ => True

theorem handleEca_spec (hok : AllOk ok) (e : Eca) (b : Bool) (a : Ah) (ha : a.held = []) :
    Spec ok G (ahBlocks a) (handleEca e (some a)) (fun r => ahOpt r.2.1 ++ r.2.2.toList)
      (fun r => r.2.2 ≠ none → Keeps (.eca e b) ∧ (Settled (.eca e b) → r.1 = .good ∧ b = true)) := by
  have hno : ∀ {r : Pr}, ((none : Option Nat) ≠ none → Keeps (.eca e b) ∧
      (Settled (.eca e b) → r = .good ∧ b = true)) := fun h => absurd rfl h
  unfold handleEca
  split
  · exact spec_pure (by simp [ahOpt]) hno
  refine spec_call (names_spec e.tries) (P := []) (D := ahBlocks a) (.refl _) ?_
  intro _ _
  rw [List.nil_append]
  split
  · exact spec_pure (by simp [ahOpt]) hno
  unfold ecaCheck
  cases hc : e.csr with
  | none =>
    refine spec_call (buildEca_spec hok e.fieldOk a ha) (D := []) (by simp) ?_
    intro r _
    exact spec_pure (by simp) hno
  | some c =>
    refine spec_call (parseCsr_spec c.parses) (P := []) (D := ahBlocks a) (.refl _) ?_
    intro req hreq
    cases req with
    | none => exact spec_pure (by simp [ahOpt]) hno
    | some q =>
      have hp : c.parses = true := hreq.1 (by simp)
      dsimp only
      split
      · next h =>
        refine spec_pure ?_ (fun _ => ⟨by simp [Keeps, hc], fun hs => absurd (hs c hc hp).1 h⟩)
        exact List.perm_append_comm (l₁ := [q])
      · refine spec_call (buildEca_spec hok e.fieldOk a ha) (D := [q])
          (List.perm_append_comm (l₁ := [q])) ?_
        intro r hr
        exact spec_pure (.refl _) (fun _ => ⟨by simp [Keeps, hc], fun hs => ⟨hr (hs c hc hp).2.1, (hs c hc hp).2.2⟩⟩)

/-- Ways of authentication that lose nothing. -/
def TryOk : Try → Prop
  | .header h _ => HdrOk h
  | _ => True

theorem tryHttp_spec (hok : AllOk ok) (t : Try) (ht : G ∨ TryOk t) (a : Ah) (ha : a.held = []) :
    Spec ok G (ahBlocks a) (tryHttp t (some a)) (fun r => ahOpt r.2.1 ++ r.2.2.toList)
      (fun r => r.2.2 ≠ none → Keeps t ∧ (Settled t → r.1 = .good ∧ t.cbOk = true)) := by
  cases t with
  | skip => exact spec_pure (by simp [ahOpt]) (fun h => absurd rfl h)
  | header h b =>
    refine spec_call (parseHeader_spec hok h ht a ha) (D := []) (by simp) ?_
    intro r _
    exact spec_pure (by simp) (fun h => absurd rfl h)
  | eca e b => exact handleEca_spec hok e b a ha

theorem peerRef_spec (p : Peer) :
    Spec ok G [] (peerRef p) (fun r => r.toList) (fun _ => True) := by
  cases p with
  | none => exact spec_pure (.refl _) trivial
  | bad => exact spec_newRef (fun p => spec_pure (.refl _) trivial)
  | good => exact spec_newRef (fun p => spec_pure (.refl _) trivial)

theorem enrollAuth_spec (hok : AllOk ok) (peer : Peer) (srp re : Bool) (t : Try)
    (ht : G ∨ TryOk t) :
    Spec ok G [] (enrollAuth peer srp re t) (fun r => r.2.toList)
      (fun r => r.2 ≠ none → Keeps t ∧ (Settled t → r.1.passes = true)) := by
  have hno : ∀ {s : State}, ((none : Option Nat) ≠ none → Keeps t ∧
      (Settled t → s.passes = true)) := fun h => absurd rfl h
  unfold enrollAuth
  refine spec_call (peerRef_spec peer) (P := []) (D := []) (.refl _) ?_
  intro p _
  split
  · refine spec_free_opt (.refl _) ?_
    exact spec_pure (.refl _) hno
  dsimp only
  split
  · refine spec_free_opt (.refl _) ?_
    exact spec_pure (.refl _) hno
  refine spec_call createAh_spec (P := []) (D := p.toList) (by simp) ?_
  intro ah hah
  cases ah with
  | none => exact absurd hok (hah.2 rfl)
  | some a =>
    refine spec_call (tryHttp_spec hok t ht a (hah.1 a rfl)) (D := p.toList) (.refl _) ?_
    rintro ⟨r, ah, csr⟩ hr
    dsimp only at hr ⊢
    refine spec_call (destroyAh_spec ah) (D := csr.toList ++ p.toList)
      (by rw [List.append_assoc]) ?_
    intro _ _
    refine spec_free_opt (P' := csr.toList) (by perm) ?_
    refine spec_pure (.refl _) (fun h => ⟨(hr h).1, fun hs => ?_⟩)
    obtain ⟨h1, h2⟩ := (hr h).2 hs
    rw [h1]
    simp [stateOf, h2, State.passes]

/-! ## The CSR -/

theorem checkCsr_spec (pubkey sigOk : Bool) :
    Spec ok G [] (checkCsr pubkey sigOk) (fun _ => []) (fun _ => True) := by
  unfold checkCsr
  refine spec_call (allocIf_spec pubkey) (P := []) (D := []) (.refl _) ?_
  intro k _
  cases k with
  | none => exact spec_pure (.refl _) trivial
  | some k => exact spec_free (.refl _) (spec_pure (.refl _) trivial)

theorem cmcRA_spec (ext ra : Bool) :
    Spec ok G [] (cmcRA ext ra) (fun _ => []) (fun _ => True) := by
  unfold cmcRA
  refine spec_call (allocIf_spec ext) (P := []) (D := []) (.refl _) ?_
  intro k _
  cases k with
  | none => exact spec_pure (.refl _) trivial
  | some k => exact spec_free (.refl _) (spec_pure (.refl _) trivial)

theorem popCheck_spec (hG : G ∨ AllOk ok) (p : Pop) :
    Spec ok G [] (popCheck p) (fun _ => []) (fun _ => True) := by
  cases p with
  | absent a => exact spec_pure (.refl _) trivial
  | value short same =>
    refine spec_call (tlsUid_spec hG short) (P := []) (D := []) (.refl _) ?_
    intro u _
    cases u with
    | none => exact spec_pure (.refl _) trivial
    | some u => exact spec_use (by simp) (spec_free (.refl _) (spec_pure (.refl _) trivial))

theorem oids_spec (hok : AllOk ok) (n : Nat) (l : List Nat) :
    Spec ok G l (oids n l) (fun r => r.2) (fun _ => True) := by
  induction n generalizing l with
  | zero => exact spec_pure (.refl _) trivial
  | succ n ih =>
    unfold oids
    al
    · next o =>
      al
      · next e =>
        fr
        refine spec_perm ?_ (ih (l ++ [e]))
        exact (List.perm_append_comm (l₁ := [e]) (l₂ := l))
      · next hn => exact absurd hok hn
    · next hn => exact absurd hok hn

/-- Enforcement that loses nothing. -/
def EnforceOk (x : Enforce) : Prop := x.body ≠ .refused ∧ x.text ≠ .refused

theorem buildOids_spec (hok : AllOk ok) (x : Enforce) (hx : G ∨ EnforceOk x) :
    Spec ok G [] (buildOids x) (fun r => r.2) (fun r => r.1 = false → r.2 = []) := by
  unfold buildOids
  al
  · next der =>
    refine spec_call (decode_spec x.body (hx.imp id (fun h => ⟨hok, h.1⟩))) (P := []) (D := [der])
      (.refl _) ?_
    intro good _
    split
    · refine spec_free (P' := []) (.refl _) ?_
      exact spec_pure (.refl _) (fun _ => rfl)
    refine spec_call (oids_spec hok x.entries []) (D := [der]) (.refl _) ?_
    rintro ⟨good, l⟩ _
    dsimp only
    split
    · refine spec_call (freeAll_spec l) (D := [der]) (.refl _) ?_
      intro _ _
      refine spec_free (P' := []) (.refl _) ?_
      exact spec_pure (.refl _) (fun _ => rfl)
    · refine spec_free (P' := l) List.perm_append_comm ?_
      exact spec_pure (.refl _) (fun h => by cases h)
  · next hn => exact absurd hok hn

theorem attrText_spec (s : Src) :
    Spec ok G [] (attrText s) (fun r => r.toList) (fun _ => True) := by
  cases s with
  | callback given =>
    cases given with
    | false => exact spec_pure (.refl _) trivial
    | true => exact spec_newRef (fun p => spec_pure (.refl _) trivial)
  | static => exact spec_post (allocIf_spec true) (fun _ _ => ⟨.refl _, trivial⟩)

theorem enforce_spec (hok : AllOk ok) (x : Enforce) (hx : G ∨ EnforceOk x) :
    Spec ok G [] (enforce x) (fun _ => []) (fun _ => True) := by
  unfold enforce
  refine spec_call (buildOids_spec hok x hx) (P := []) (D := []) (.refl _) ?_
  rintro ⟨good, l⟩ hl
  dsimp only at hl ⊢
  rw [List.append_nil]
  split
  · next h =>
    rw [hl (by simpa using h)]
    exact spec_pure (.refl _) trivial
  refine spec_call (attrText_spec x.src) (P := []) (D := l) (.refl _) ?_
  intro text _
  cases text with
  | none =>
    refine spec_call (freeAll_spec l) (D := []) (by simp) ?_
    intro _ _
    exact spec_pure (.refl _) trivial
  | some text =>
    dsimp only [Option.toList, List.cons_append, List.nil_append]
    us
    split
    · refine spec_call (freeAll_spec l) (D := [text]) (by perm) ?_
      intro _ _
      dsimp only [List.nil_append]
      go
    al
    · next der =>
      refine spec_call (decode_spec x.text (hx.imp id (fun h => ⟨hok, h.2⟩))) (P := [])
        (D := der :: text :: l) (.refl _) ?_
      intro good _
      dsimp only [List.nil_append]
      fr
      split
      · refine spec_call (freeAll_spec l) (D := [der]) (by perm) ?_
        intro _ _
        dsimp only [List.nil_append]
        go
      · refine spec_call (names_spec x.objects) (P := []) (D := der :: l) (.refl _) ?_
        intro _ _
        refine spec_call (freeAll_spec l) (D := [der]) (by perm) ?_
        intro _ _
        dsimp only [List.nil_append]
        go
    · next hn => exact absurd hok hn

/-- CSRs whose checks lose nothing. -/
def CsrOk (c : CsrIn) : Prop := ∀ x, c.attrs = some x → EnforceOk x

theorem checks_spec (hok : AllOk ok) (hasPeer : Bool) (c : CsrIn) (hc : G ∨ CsrOk c) :
    Spec ok G [] (checks hasPeer c) (fun _ => []) (fun _ => True) := by
  have hp := popCheck_spec (G := G) (.inr hok) c.pop
  unfold checks
  refine spec_call (P := []) (D := []) (Q := fun _ => []) (R := fun _ => True) ?_ (.refl _) ?_
  · unfold popUnlessRa
    split
    · refine spec_call (cmcRA_spec c.ext c.ra) (P := []) (D := []) (.refl _) ?_
      intro ra _
      split
      · exact spec_pure (.refl _) trivial
      · exact hp
    · exact hp
  intro good _
  split
  · exact spec_pure (.refl _) trivial
  · cases hx : c.attrs with
    | none => exact spec_pure (.refl _) trivial
    | some x => exact enforce_spec hok x (hc.imp id (fun h => h x hx))

theorem theCsr_spec (kept : Option Nat) (parses : Bool) :
    Spec ok G kept.toList (theCsr kept parses) (fun r => r.toList) (fun _ => True) := by
  cases kept with
  | some r => exact spec_pure (.refl _) trivial
  | none => exact spec_post (parseCsr_spec parses) (fun _ _ => ⟨.refl _, trivial⟩)

/-! ## Enrolment -/

/-- CA callbacks that store a buffer only when they succeed. -/
def CaOk : Ca → Prop
  | .issued => True
  | .retry b => b = false
  | .fail b => b = false
  | .empty b => b = false

theorem caBuf_spec (c : Ca) :
    Spec ok G [] (caBuf c) (fun r => r.toList)
      (fun r => (c = .issued → r ≠ none) ∧ (c ≠ .issued → CaOk c → r = none)) := by
  cases c with
  | issued =>
    exact spec_newRef (fun p => spec_pure (.refl _) ⟨(fun _ h => by cases h), fun h => absurd rfl h⟩)
  | retry b =>
    cases b with
    | false => exact spec_pure (.refl _) ⟨(fun h => by cases h), fun _ _ => rfl⟩
    | true => exact spec_newRef (fun p => spec_pure (.refl _)
        ⟨(fun h => by cases h), (fun _ h => by cases h)⟩)
  | fail b =>
    cases b with
    | false => exact spec_pure (.refl _) ⟨(fun h => by cases h), fun _ _ => rfl⟩
    | true => exact spec_newRef (fun p => spec_pure (.refl _)
        ⟨(fun h => by cases h), (fun _ h => by cases h)⟩)
  | empty b =>
    cases b with
    | false => exact spec_pure (.refl _) ⟨(fun h => by cases h), fun _ _ => rfl⟩
    | true => exact spec_newRef (fun p => spec_pure (.refl _)
        ⟨(fun h => by cases h), (fun _ h => by cases h)⟩)

theorem askCa_spec (x : EnrollIn) (r : Nat) (hc : G ∨ CaOk x.ca) :
    Spec ok G [r] (askCa x r) (fun c => c.toList) (fun _ => True) := by
  unfold askCa
  us
  refine spec_call (caBuf_spec x.ca) (P := []) (D := [r]) (.refl _) ?_
  intro cert hcert
  split
  · next h =>
    cases cert with
    | none => exact absurd rfl (hcert.1 h)
    | some cert =>
      dsimp only [Option.toList, List.cons_append, List.nil_append]
      split <;> go
  · next h =>
    refine spec_free (P' := cert.toList) (by perm) ?_
    rcases hc with hg | hc
    · exact spec_lose cert.toList hg (.refl _) trivial
    · rw [hcert.2 h hc]
      exact spec_pure (.refl _) trivial

theorem enrollCsr_spec (hok : AllOk ok) (hasPeer : Bool) (x : EnrollIn) (r : Nat)
    (hc : G ∨ (CaOk x.ca ∧ CsrOk x.csr)) :
    Spec ok G [r] (enrollCsr hasPeer x r) (fun c => c.toList) (fun _ => True) := by
  unfold enrollCsr
  us
  refine spec_call (checkCsr_spec x.csr.pubkey x.csr.sigOk) (P := []) (D := [r]) (.refl _) ?_
  intro good _
  dsimp only [List.nil_append]
  split
  · go
  refine spec_call (checks_spec hok hasPeer x.csr (hc.imp id (·.2))) (P := []) (D := [r])
    (.refl _) ?_
  intro good _
  dsimp only [List.nil_append]
  split
  · go
  exact askCa_spec x r (hc.imp id (·.1))

/-- Enrolments that lose nothing. -/
def EnrollOk (x : EnrollIn) : Prop := TryOk x.auth ∧ Settled x.auth ∧ CsrOk x.csr ∧ CaOk x.ca

theorem simpleEnroll_spec (hok : AllOk ok) (peer : Peer) (x : EnrollIn) (hx : G ∨ EnrollOk x) :
    Spec ok G [] (simpleEnroll peer x) (fun c => c.toList) (fun _ => True) := by
  unfold simpleEnroll
  split
  · exact spec_pure (.refl _) trivial
  refine spec_call (enrollAuth_spec hok peer x.srp x.re x.auth (hx.imp id (·.1))) (P := [])
    (D := []) (.refl _) ?_
  rintro ⟨s, kept⟩ hs
  dsimp only at hs ⊢
  rw [List.append_nil]
  split
  · next h =>
    cases kept with
    | none => exact spec_pure (.refl _) trivial
    | some k =>
      rcases hx with hg | hx
      · exact spec_lose [k] hg (.refl _) trivial
      · exact absurd ((hs (by simp)).2 hx.2.1) (by simpa using h)
  refine spec_call (theCsr_spec kept x.csr.parses) (D := []) (by simp) ?_
  intro r _
  cases r with
  | none => exact spec_pure (.refl _) trivial
  | some r => exact enrollCsr_spec hok _ x r (hx.imp id (fun h => ⟨h.2.2.2, h.2.2.1⟩))

theorem keyRef_spec (b : Bool) :
    Spec ok G [] (keyRef b) (fun r => r.toList) (fun r => b = false → r = none) := by
  cases b with
  | false => exact spec_pure (.refl _) (fun _ => rfl)
  | true => exact spec_newRef (fun p => spec_pure (.refl _) (fun h => by cases h))

/-- The blocks of a certificate with its key. -/
def pairBlocks (r : Option (Nat × Nat)) : List Nat := r.elim [] (fun p => [p.1, p.2])

theorem each_none {X : List Nat} (l : List (Option Nat)) (h : X.Perm (l.flatMap Option.toList)) :
    Spec ok G X (freeEach l >>= fun _ => pure (none : Option (Nat × Nat))) pairBlocks
      (fun _ => True) := by
  refine spec_call (freeEach_spec l) (D := []) (by simpa using h) ?_
  intro _ _
  exact spec_pure (.refl _) trivial

theorem keygenCa_spec (x : KeygenIn) (r mem b64 text der : Nat) :
    Spec ok G [r, mem, b64, text, der] (keygenCa x r mem b64 text der) pairBlocks
      (fun _ => True) := by
  unfold keygenCa
  refine spec_call (caBuf_spec x.ca) (P := []) (D := [r, mem, b64, text, der]) (.refl _) ?_
  intro cert _
  cases cert with
  | none => exact each_none _ (.refl _)
  | some cert =>
    dsimp only [Option.toList, List.cons_append, List.nil_append]
    split
    · us
      us
      refine spec_call (freeEach_spec [some r, some mem, some b64, some der]) (D := [cert, text])
        ?_ ?_
      · simp only [List.flatMap_cons, List.flatMap_nil, Option.toList]
        perm
      intro _ _
      exact spec_pure (.refl _) trivial
    · exact each_none _ (.refl _)

theorem keygenBody_spec (hok : AllOk ok) (hasPeer : Bool) (x : KeygenIn) (r text der : Nat)
    (hc : G ∨ CsrOk x.csr) :
    Spec ok G [r, text, der] (keygenBody hasPeer x r text der) pairBlocks (fun _ => True) := by
  unfold keygenBody
  al
  · next b64 =>
    al
    · next mem =>
      refine spec_call (checks_spec hok hasPeer x.csr hc) (P := []) (D := [mem, b64, r, text, der])
        (.refl _) ?_
      intro good _
      dsimp only [List.nil_append]
      split
      · refine each_none _ ?_
        simp only [List.flatMap_cons, List.flatMap_nil, Option.toList]
        perm
      · exact spec_perm (by perm) (keygenCa_spec x r mem b64 text der)
    · exact each_none _ (.refl _)
  · exact each_none _ (.refl _)

theorem keyText_spec (der : Option Nat) :
    Spec ok G [] (keyText der) (fun r => r.toList) (fun _ => True) := by
  cases der with
  | none => exact spec_pure (.refl _) trivial
  | some d => exact spec_post (allocIf_spec true) (fun _ _ => ⟨.refl _, trivial⟩)

theorem keygenKey_spec (hok : AllOk ok) (hasPeer : Bool) (x : KeygenIn) (r key : Nat)
    (hc : G ∨ CsrOk x.csr) :
    Spec ok G [r, key] (keygenKey hasPeer x r key) pairBlocks (fun _ => True) := by
  unfold keygenKey
  us
  refine spec_call (allocIf_spec x.derOk) (P := []) (D := [r, key]) (.refl _) ?_
  intro der _
  refine spec_call (keyText_spec der) (P := []) (D := der.toList ++ [r, key]) (.refl _) ?_
  intro text _
  cases der with
  | none =>
    refine each_none [some r, some key, text, none] ?_
    simp only [List.flatMap_cons, List.flatMap_nil]
    perm
  | some der =>
    cases text with
    | none =>
      refine each_none [some r, some key, none, some der] ?_
      simp only [List.flatMap_cons, List.flatMap_nil]
      perm
    | some text =>
      dsimp only [Option.toList, List.cons_append, List.nil_append]
      split
      · refine each_none _ ?_
        simp only [List.flatMap_cons, List.flatMap_nil, Option.toList]
        perm
      refine spec_call (checkCsr_spec x.csr.pubkey x.csr.sigOk) (P := [])
        (D := [text, der, r, key]) (.refl _) ?_
      intro good _
      dsimp only [List.nil_append]
      split
      · refine each_none _ ?_
        simp only [List.flatMap_cons, List.flatMap_nil, Option.toList]
        perm
      · refine spec_free (P' := [r, text, der]) (by perm) ?_
        exact keygenBody_spec hok hasPeer x r text der hc

theorem keygenCsr_spec (hok : AllOk ok) (hasPeer : Bool) (x : KeygenIn) (r : Nat)
    (hc : G ∨ CsrOk x.csr) :
    Spec ok G [r] (keygenCsr hasPeer x r) pairBlocks (fun _ => True) := by
  unfold keygenCsr
  refine spec_call (keyRef_spec x.given) (P := []) (D := [r]) (.refl _) ?_
  intro key _
  cases key with
  | none => exact spec_free (.refl _) (spec_pure (.refl _) trivial)
  | some key =>
    dsimp only [Option.toList, List.cons_append, List.nil_append]
    split
    · refine each_none _ ?_
      simp only [List.flatMap_cons, List.flatMap_nil, Option.toList]
      perm
    · exact spec_perm (by perm) (keygenKey_spec hok hasPeer x r key hc)

/-- Key generations that lose nothing. -/
def KeygenOk (x : KeygenIn) : Prop := TryOk x.auth ∧ CsrOk x.csr

theorem serverKeygen_spec (hok : AllOk ok) (peer : Peer) (x : KeygenIn) (hx : G ∨ KeygenOk x) :
    Spec ok G [] (serverKeygen peer x) pairBlocks (fun _ => True) := by
  unfold serverKeygen
  split
  · exact spec_pure (.refl _) trivial
  refine spec_call (enrollAuth_spec hok peer x.srp true x.auth (hx.imp id (·.1))) (P := [])
    (D := []) (.refl _) ?_
  rintro ⟨s, kept⟩ hs
  dsimp only at hs ⊢
  rw [List.append_nil]
  split
  · refine spec_free_opt (P' := []) (by simp) ?_
    exact spec_pure (.refl _) trivial
  refine spec_call (theCsr_spec kept x.csr.parses) (D := []) (by simp) ?_
  intro r _
  cases r with
  | none => exact spec_pure (.refl _) trivial
  | some r => exact keygenCsr_spec hok _ x r (hx.imp id (·.2))

/-! ## The other operations -/

theorem parseAttrs_spec (dec : B64) (sane : Bool) (hG : G ∨ (AllOk ok ∧ dec ≠ .refused)) :
    Spec ok G [] (parseAttrs dec sane) (fun _ => []) (fun _ => True) := by
  unfold parseAttrs
  al
  · next der =>
    refine spec_call (decode_spec dec hG) (P := []) (D := [der]) (.refl _) ?_
    intro good _
    dsimp only [List.nil_append]
    go
  · go

theorem addChallenge_spec (dec : B64) (isSeq encOk : Bool)
    (hG : G ∨ (AllOk ok ∧ dec ≠ .refused)) :
    Spec ok G [] (addChallenge dec isSeq encOk) (fun r => r.toList) (fun _ => True) := by
  unfold addChallenge
  al
  · next der =>
    refine spec_call (decode_spec dec hG) (P := []) (D := [der]) (.refl _) ?_
    intro good _
    dsimp only [List.nil_append]
    go
  · go

theorem sendFresh_spec : Spec ok G [] sendFresh (fun _ => []) (fun _ => True) := by
  unfold sendFresh
  al
  · exact spec_last
  · go

/-- Attribute requests that lose nothing. -/
def AttrsOk : Attrs → Prop
  | .cbEmpty pop => pop = false
  | .cbText dec _ _ _ _ _ => dec ≠ .refused
  | _ => True

theorem sendText_spec (p : Nat) (dec : B64) (sane pop present isSeq encOk : Bool)
    (hG : G ∨ (AllOk ok ∧ dec ≠ .refused)) :
    Spec ok G [p] (sendText p dec sane pop present isSeq encOk) (fun _ => []) (fun _ => True) := by
  unfold sendText
  refine spec_call (parseAttrs_spec dec sane hG) (P := []) (D := [p]) (.refl _) ?_
  intro good _
  dsimp only [List.nil_append]
  split
  · exact spec_last
  split
  · exact spec_last
  refine spec_call (parseAttrs_spec dec sane hG) (P := []) (D := [p]) (.refl _) ?_
  intro good _
  dsimp only [List.nil_append]
  split
  · exact spec_last
  split
  · exact spec_last
  refine spec_call (addChallenge_spec dec isSeq encOk hG) (P := []) (D := [p]) (.refl _) ?_
  intro q _
  cases q with
  | none => exact spec_last
  | some q =>
    dsimp only [Option.toList, List.cons_append, List.nil_append]
    fr
    exact spec_last

theorem csrattrs_spec (a : Attrs) (hG : G ∨ (AllOk ok ∧ AttrsOk a)) :
    Spec ok G [] (csrattrs a) (fun _ => []) (fun _ => True) := by
  cases a with
  | nothing => exact spec_pure (.refl _) trivial
  | popOnly => exact sendFresh_spec
  | static => exact sendFresh_spec
  | cbNull pop =>
    cases pop with
    | false => exact spec_pure (.refl _) trivial
    | true => exact sendFresh_spec
  | cbEmpty pop =>
    refine spec_newRef (fun p => ?_)
    cases pop with
    | false => exact spec_last
    | true =>
      rcases hG with hg | ⟨_, h⟩
      · exact spec_drop hg sendFresh_spec (L := [p]) (.refl _)
      · cases h
  | cbShort => exact spec_newRef (fun p => spec_last)
  | cbText dec sane pop present isSeq encOk =>
    exact spec_newRef (fun p => sendText_spec p dec sane pop present isSeq encOk hG)

/-- Voucher callbacks that lose nothing. -/
def VoucherOk : Voucher → Prop
  | .retry buf sent => buf = false ∨ sent = true
  | _ => True

theorem answerVoucher_spec (v : Voucher) (hv : G ∨ VoucherOk v) :
    Spec ok G [] (answerVoucher v) (fun _ => []) (fun _ => True) := by
  cases v with
  | issued => exact spec_newRef (fun p => spec_use (by simp) spec_last)
  | fail buf =>
    refine spec_call (keyRef_spec buf) (P := []) (D := []) (.refl _) ?_
    intro v _
    exact last_opt v (.refl _)
  | retry buf sent =>
    refine spec_call (keyRef_spec buf) (P := []) (D := []) (.refl _) ?_
    intro v hb
    cases sent with
    | true => exact last_opt v (.refl _)
    | false =>
      rcases hv with hg | hv
      · exact spec_lose v.toList hg (by simp) trivial
      · rcases hv with hv | hv
        · rw [hb hv]
          exact spec_pure (.refl _) trivial
        · cases hv

theorem keeps_noCsr (t : Try) : ¬ Keeps t.noCsr := by
  cases t <;> simp [Try.noCsr, Keeps]

theorem tryOk_noCsr {t : Try} (h : TryOk t) : TryOk t.noCsr := by
  cases t with
  | skip => trivial
  | header _ _ => exact h
  | eca _ _ => trivial

theorem brski_spec (hok : AllOk ok) (peer : Peer) (ready srp : Bool) (t : Try)
    (v : Option Voucher) (h : G ∨ (TryOk t ∧ ∀ x, v = some x → VoucherOk x)) :
    Spec ok G [] (brski peer ready srp t v) (fun _ => []) (fun _ => True) := by
  unfold brski
  split
  · exact spec_pure (.refl _) trivial
  refine spec_call (enrollAuth_spec hok peer srp false t.noCsr (h.imp id (fun h => tryOk_noCsr h.1)))
    (P := []) (D := []) (.refl _) ?_
  rintro ⟨s, kept⟩ _
  dsimp only
  refine spec_free_opt (.refl _) ?_
  split
  · exact spec_pure (.refl _) trivial
  refine spec_call (peerRef_spec peer) (P := []) (D := []) (.refl _) ?_
  intro p _
  refine spec_free_opt (.refl _) ?_
  cases v with
  | none => exact spec_pure (.refl _) trivial
  | some x => exact answerVoucher_spec x (h.imp id (fun h => h.2 x rfl))

/-! ## Requests -/

theorem parseUri_spec (u : Uri) (hu : AllOk ok ∨ ∃ b, u = .plain b) :
    Spec ok G [] (parseUri u) (fun r => r.2.toList) (fun r => r.1 = false → r.2 = none) := by
  cases u with
  | plain good => exact spec_pure (.refl _) (fun _ => rfl)
  | refused =>
    refine spec_newRef (fun p => ?_)
    fr
    exact spec_pure (.refl _) (fun _ => rfl)
  | operation last =>
    have hok : AllOk ok := hu.resolve_right (fun ⟨b, h⟩ => by cases h)
    refine spec_newRef (fun p => ?_)
    al
    · us; fr; fr
      exact spec_pure (.refl _) (fun _ => rfl)
    · next hn => exact absurd hok hn
  | segment operation =>
    have hok : AllOk ok := hu.resolve_right (fun ⟨b, h⟩ => by cases h)
    refine spec_newRef (fun p => ?_)
    al
    · us
      al
      · fr
        split
        · fr
          exact spec_pure (.refl _) (fun h => by cases h)
        · fr; fr
          exact spec_pure (.refl _) (fun _ => rfl)
      · fr; fr
        exact spec_pure (.refl _) (fun _ => rfl)
    · next hn => exact absurd hok hn

theorem event_spec (e : Option Bool) : Spec ok G [] (event e) (fun _ => []) (fun _ => True) := by
  cases e with
  | none => exact spec_pure (.refl _) trivial
  | some parses =>
    refine spec_call (parseCsr_spec parses) (P := []) (D := []) (.refl _) ?_
    intro r _
    exact last_opt r (.refl _)

/-- Work that loses nothing. -/
def WorkOk : Work → Prop
  | .refused => True
  | .cacerts => True
  | .csrattrs a => AttrsOk a
  | .enroll x _ _ => EnrollOk x
  | .keygen x _ _ => KeygenOk x
  | .brski _ _ t v => TryOk t ∧ ∀ x, v = some x → VoucherOk x

/-- Work for which no memory needs to be available. -/
def Light : Work → Prop
  | .refused => True
  | .cacerts => True
  | .csrattrs _ => True
  | _ => False

theorem perform_spec (peer : Peer) (w : Work) (hu : AllOk ok ∨ Light w)
    (hw : G ∨ (AllOk ok ∧ WorkOk w)) :
    Spec ok G [] (perform peer w) (fun _ => []) (fun _ => True) := by
  cases w with
  | refused => exact spec_pure (.refl _) trivial
  | cacerts => exact spec_pure (.refl _) trivial
  | csrattrs a => exact csrattrs_spec a hw
  | enroll x before after =>
    have hok : AllOk ok := hu.resolve_right id
    refine spec_call (event_spec before) (P := []) (D := []) (.refl _) ?_
    intro _ _
    refine spec_call (simpleEnroll_spec hok peer x (hw.imp id (·.2))) (P := []) (D := []) (.refl _) ?_
    intro cert _
    refine spec_call (event_spec after) (P := []) (D := cert.toList) (by simp) ?_
    intro _ _
    exact last_opt cert (by simp)
  | keygen x before after =>
    have hok : AllOk ok := hu.resolve_right id
    refine spec_call (event_spec before) (P := []) (D := []) (.refl _) ?_
    intro _ _
    refine spec_call (serverKeygen_spec hok peer x (hw.imp id (·.2))) (P := []) (D := []) (.refl _) ?_
    intro r _
    refine spec_call (event_spec after) (P := []) (D := pairBlocks r) (by simp) ?_
    intro _ _
    cases r with
    | none => exact spec_pure (.refl _) trivial
    | some p =>
      show Spec ok G [p.1, p.2] _ _ _
      unfold releasePair
      refine spec_free (P' := [p.2]) (.refl _) ?_
      us
      exact spec_last
  | brski ready srp t v =>
    have hok : AllOk ok := hu.resolve_right id
    exact brski_spec hok peer ready srp t v (hw.imp id (·.2))

/-- Requests for which no memory needs to be available. -/
def LightRq (q : Rq) : Prop := q.body = false ∧ (∃ b, q.uri = .plain b) ∧ Light q.work

theorem httpRequest_spec (q : Rq) (hu : AllOk ok ∨ LightRq q)
    (hw : G ∨ (AllOk ok ∧ WorkOk q.work)) :
    Spec ok G [] (httpRequest q) (fun _ => []) (fun _ => True) := by
  unfold httpRequest
  split
  · exact spec_pure (.refl _) trivial
  refine spec_call (peerRef_spec q.peer) (P := []) (D := []) (.refl _) ?_
  intro p _
  refine spec_call (parseUri_spec q.uri (hu.imp id (·.2.1))) (P := []) (D := p.toList) (by simp) ?_
  rintro ⟨good, seg⟩ hs
  dsimp only at hs ⊢
  split
  · next h =>
    rw [hs (by simpa using h)]
    exact last_opt p (by simp)
  · refine spec_call (perform_spec q.peer q.work (hu.imp id (·.2.2)) hw) (P := [])
      (D := seg.toList ++ p.toList) (.refl _) ?_
    intro _ _
    refine spec_free_opt (P' := seg.toList) (by perm) ?_
    exact last_opt seg (by simp)

theorem handler_spec (q : Rq) (hu : AllOk ok ∨ LightRq q)
    (hw : G ∨ (AllOk ok ∧ WorkOk q.work)) :
    Spec ok G [] (handler q) (fun _ => []) (fun _ => True) := by
  unfold handler
  split
  · next h =>
    have hok : AllOk ok := hu.resolve_right (fun x => by simp [x.1] at h)
    al
    · next b =>
      us
      refine spec_call (httpRequest_spec q hu hw) (P := []) (D := [b]) (.refl _) ?_
      intro _ _
      exact spec_last
    · next hn => exact absurd hok hn
  · exact httpRequest_spec q hu hw

theorem serve_spec (qs : List Rq) (hu : AllOk ok ∨ ∀ q ∈ qs, LightRq q)
    (hw : G ∨ (AllOk ok ∧ ∀ q ∈ qs, WorkOk q.work)) :
    Spec ok G [] (serve qs) (fun _ => []) (fun _ => True) := by
  induction qs with
  | nil => exact spec_pure (.refl _) trivial
  | cons q qs ih =>
    unfold serve
    refine spec_call (handler_spec q (hu.imp id (fun h => h q (List.mem_cons_self ..)))
      (hw.imp id (fun h => ⟨h.1, h.2 q (List.mem_cons_self ..)⟩))) (P := []) (D := []) (.refl _) ?_
    intro _ _
    exact ih (hu.imp id (fun h x hx => h x (List.mem_cons_of_mem _ hx)))
      (hw.imp id (fun h => ⟨h.1, fun x hx => h.2 x (List.mem_cons_of_mem _ hx)⟩))

end Verif.ServerMem
