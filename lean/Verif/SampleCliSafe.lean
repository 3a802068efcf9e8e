import Verif.SampleCliSteps

/-!
# What came before each call of the sample client
-/
namespace Verif.SampleCli
open Verif.ClientResp (decimal)

/-- The conditions on the calls of a round. -/
abbrev Fine (o : Opts) (tid i : Nat) (h : List Ev) (x : Ev) : Prop := Order o tid i h x ∧ Wanted o x.call

/-- The command line asks for a regular enrolment. -/
abbrev Loops (o : Opts) : Prop := o.getcsr = true ∧ (o.enroll = true ∨ o.keygen = true)

theorem sub3 {g m y : Ev} {h h2 : List Ev} (hg : g ∈ h) : [g, m, y].Sublist (h ++ [m] ++ [y] ++ h2) := by
  have h1 : [g].Sublist h := List.singleton_sublist.2 hg
  have h3 : ([g] ++ [m] ++ [y]).Sublist (h ++ [m] ++ [y]) :=
    (h1.append (List.Sublist.refl _)).append (List.Sublist.refl _)
  exact h3.trans (List.sublist_append_left _ _)

theorem sub2 {m y : Ev} {h h2 : List Ev} : [m, y].Sublist (h ++ [m] ++ [y] ++ h2) := by
  have h3 : ([m] ++ [y]).Sublist (h ++ [m] ++ [y]) :=
    (List.sublist_append_right _ _).append (List.Sublist.refl _)
  exact h3.trans (List.sublist_append_left _ _)

theorem safe_saveCert {o : Opts} {tid i : Nat} {kind : List Nat} {b0 : Buf} {h : List Ev} {U : List Ev → Prop} {B : Prop}
    (hb : ∀ h2 n b, Stored o kind tid i (h ++ h2) b0 n b → FileOk o tid i (h ++ h2) n b) :
    Safe (Fine o tid i) U B (fun _ h' => ∃ h2, h' = h ++ h2) (saveCert o (baseName o kind tid i) b0) h := by
  have hn : ∀ ext, cut (baseName o kind tid i ++ ext) = FileName o kind tid i ext := by
    intro ext; simp [baseName, cut, FileName]
  unfold saveCert
  split
  · rename_i hp
    intro p
    refine ⟨⟨trivial, trivial⟩, ?_⟩
    bsplit
    · rename_i hl
      intro a
      refine ⟨⟨?_, trivial⟩, ⟨[⟨.toPem b0, p⟩, ⟨.write (cut (baseName o kind tid i ++ [46, 112, 101, 109])) ⟨p.data, 0⟩, a⟩], by simp⟩⟩
      refine hb _ _ _ ?_
      unfold Stored
      rw [if_pos hp]
      exact ⟨p, by simp, hl, hn _, rfl⟩
    · exact ⟨_, rfl⟩
  · rename_i hp
    intro a
    refine ⟨⟨?_, trivial⟩, ⟨_, rfl⟩⟩
    have := hb [] (cut (baseName o kind tid i ++ [46, 112, 107, 99, 115, 55])) b0
    rw [List.append_nil] at this
    refine this ?_
    unfold Stored
    rw [if_neg hp]
    exact ⟨hn _, rfl⟩

/-- What an attempt leaves: a certificate was copied, or there is a reason why not. -/
def Attempted (h : List Ev) (rv : EstErr) (h' : List Ev) : Prop :=
  (∃ h2, h' = h ++ h2) ∧ (rv = .none → ∃ y : Ans, ⟨.copyCert, y⟩ ∈ h' ∧ y.rc = .none) ∧ (rv ≠ .none → Trouble h' rv)

theorem filled_bad {n : Nat} {y : Ans} (h : y.rc ≠ .none) : Filled n y ⟨[], n⟩ := by
  unfold Filled; rw [if_neg h]

theorem filled_ok {n : Nat} {y : Ans} (h : ¬ y.rc ≠ .none) (hl : ¬ y.data.length > n) :
    Filled n y ⟨y.data, n - y.data.length⟩ := by
  unfold Filled; rw [if_pos (by simpa using h)]; exact ⟨by omega, rfl⟩

theorem copy_outOfBounds {n : Nat} {m y : Ans} {c : Call} {h : List Ev}
    (hc : c = .copyKey ∨ c = .copyCert ∨ c = .copyCacerts) (hr : ¬ y.rc ≠ .none) (hl : y.data.length > n) :
    OutOfBounds (h ++ [⟨.alloc n, m⟩] ++ [⟨c, y⟩]) := by
  refine .inr ⟨n, m, ⟨c, y⟩, ?_, hc, by simpa using hr, hl⟩
  have := @sub2 ⟨.alloc n, m⟩ ⟨c, y⟩ h []
  rwa [List.append_nil] at this

theorem safe_fetchCert {o : Opts} {tid i : Nat} {g : Ev} {h : List Ev} {B : Prop}
    (hg : g ∈ h) (he : IsEnrol g.call) (hr : g.ans.rc = .none) :
    Safe (Fine o tid i) OutOfBounds B (Attempted h) (fetchCert o tid i g.ans.len) h := by
  intro m
  refine ⟨⟨trivial, trivial⟩, ?_⟩
  bsplit
  · rename_i hm
    exact ⟨⟨_, rfl⟩, by simp, fun _ => ⟨⟨.alloc g.ans.len, m⟩, by simp, .inr (by simpa using hm)⟩⟩
  · intro y
    refine ⟨⟨⟨g, by simp [hg], .inl he, hr⟩, trivial⟩, ?_⟩
    have key : ∀ b, Filled g.ans.len y b → ∀ h2 n b', Stored o [99, 101, 114, 116] tid i (h ++ [⟨.alloc g.ans.len, m⟩] ++ [⟨.copyCert, y⟩] ++ h2) b n b' →
        FileOk o tid i (h ++ [⟨.alloc g.ans.len, m⟩] ++ [⟨.copyCert, y⟩] ++ h2) n b' := by
      intro b hb h2 n b' hst
      exact .inr (.inr (.inl ⟨g, m, y, b, sub3 hg, .inl he, hr, hb, hst⟩))
    bsplit
    · rename_i hy
      refine safe_bind _ _ _ _ (safe_saveCert (key _ (filled_bad hy))) ?_
      rintro _ h' ⟨h2, rfl⟩
      exact ⟨⟨[⟨.alloc g.ans.len, m⟩, ⟨.copyCert, y⟩] ++ h2, by simp⟩, fun hh => absurd hh hy,
        fun _ => ⟨⟨.copyCert, y⟩, by simp, .inl rfl⟩⟩
    · rename_i hy
      bsplit
      · rename_i hl
        exact copy_outOfBounds (by simp) hy hl
      · rename_i hl
        refine safe_bind _ _ _ _ (safe_saveCert (key _ (filled_ok hy hl))) ?_
        rintro _ h' ⟨h2, rfl⟩
        exact ⟨⟨[⟨.alloc g.ans.len, m⟩, ⟨.copyCert, y⟩] ++ h2, by simp⟩,
          fun _ => ⟨y, by simp, by simpa using hy⟩, fun hh => absurd rfl hh⟩

theorem attempted_trans {h h1 h' : List Ev} {rv : EstErr} (h2 : ∃ l, h1 = h ++ l) (ha : Attempted h1 rv h') :
    Attempted h rv h' := by
  obtain ⟨l, rfl⟩ := h2
  obtain ⟨⟨l2, rfl⟩, a, b⟩ := ha
  exact ⟨⟨l ++ l2, by simp⟩, a, b⟩

theorem safe_fetch {o : Opts} {tid i : Nat} {g : Ev} {h : List Ev} {B : Prop}
    (hg : g ∈ h) (he : IsEnrol g.call) :
    Safe (Fine o tid i) OutOfBounds B (Attempted h) (fetch o tid i g.ans) h := by
  unfold fetch
  split
  · rename_i hr
    exact ⟨⟨[], by simp⟩, fun hh => absurd hh hr, fun _ => ⟨g, hg, .inl rfl⟩⟩
  · rename_i hr
    have hr' : g.ans.rc = .none := by simpa using hr
    split
    · rename_i hk
      intro m
      refine ⟨⟨trivial, trivial⟩, ?_⟩
      bsplit
      · rename_i hm
        exact ⟨⟨_, rfl⟩, by simp, fun _ => ⟨⟨.alloc g.ans.klen, m⟩, by simp, .inr (by simpa using hm)⟩⟩
      · intro y
        refine ⟨⟨⟨g, by simp [hg], he, hr'⟩, trivial⟩, ?_⟩
        have key : ∀ b, Filled g.ans.klen y b →
            FileOk o tid i (h ++ [⟨.alloc g.ans.klen, m⟩] ++ [⟨.copyKey, y⟩]) (cut (baseName o [107, 101, 121] tid i ++ [46, 107, 101, 121])) b := by
          intro b hb
          have := @sub3 g ⟨.alloc g.ans.klen, m⟩ ⟨.copyKey, y⟩ h [] hg
          rw [List.append_nil] at this
          exact .inr (.inl ⟨g, m, y, this, he, hr', hk, hb, by simp [baseName, cut, FileName]⟩)
        have rest : ∀ b, Filled g.ans.klen y b → Safe (Fine o tid i) OutOfBounds B (Attempted h)
            ((saveKey (baseName o [107, 101, 121] tid i) b).bind fun _ => fetchCert o tid i g.ans.len)
            (h ++ [⟨.alloc g.ans.klen, m⟩] ++ [⟨.copyKey, y⟩]) := by
          intro b hb a
          refine ⟨⟨key b hb, trivial⟩, ?_⟩
          refine safe_mono _ _ _ _ (safe_fetchCert (by simp [hg]) he hr') ?_
          intro rv h' ha
          exact attempted_trans ⟨_, by rw [List.append_assoc, List.append_assoc]⟩ ha
        bsplit
        · rename_i hy
          exact rest _ (filled_bad hy)
        · rename_i hy
          bsplit
          · rename_i hl
            exact copy_outOfBounds (by simp) hy hl
          · rename_i hl
            exact rest _ (filled_ok hy hl)
    · exact safe_fetchCert hg he hr'

theorem attempted_one {h : List Ev} {x : Ev} (hx : x.ans.rc ≠ .none) : Attempted h x.ans.rc (h ++ [x]) :=
  ⟨⟨_, rfl⟩, fun hh => absurd hh hx, fun _ => ⟨x, by simp, .inl rfl⟩⟩

theorem attempted_ptr {h : List Ev} {x : Ev} {e : EstErr} (hx : x.ans.ptr = false) (he : e ≠ .none) :
    Attempted h e (h ++ [x]) :=
  ⟨⟨_, rfl⟩, fun hh => absurd hh he, fun _ => ⟨x, by simp, .inr hx⟩⟩

theorem safe_simpleGo {o : Opts} {tid i : Nat} {h : List Ev} {B : Prop} (hc : o.getcsr = false)
    (ho : o.enroll = true ∨ o.keygen = true)
    (hp : o.forcePop = true → ∃ g ∈ h, g.call = .forcePop ∧ g.ans.rc = .none) :
    Safe (Fine o tid i) OutOfBounds B (Attempted h) (simpleGo o tid i) h := by
  unfold simpleGo
  split
  · rename_i hf
    intro r
    refine ⟨⟨trivial, hf, hc⟩, ?_⟩
    bsplit
    · rename_i hr
      exact attempted_ptr (by simpa using hr) (by simp)
    · intro b
      refine ⟨⟨by by_cases hk : o.keygen = true <;> simp [hk, Order], ?_⟩, ?_⟩
      · by_cases hk : o.keygen = true
        · simp [hk, Wanted, hf, hc]
        · simp only [Bool.not_eq_true] at hk; simp [hk] at ho; simp [hk, Wanted, hf, ho, hc]
      · intro u
        refine ⟨⟨trivial, trivial⟩, ?_⟩
        refine safe_mono _ _ _ _ (safe_fetch
          (g := ⟨if o.keygen then .keygenEnrollCsr false else .enrollCsr false, b⟩) (by simp) (by split <;> trivial)) ?_
        intro rv h' ha
        exact attempted_trans ⟨_, by rw [List.append_assoc, List.append_assoc]⟩ ha
  · rename_i hf
    intro b
    refine ⟨⟨by by_cases hk : o.keygen = true <;> simpa [hk, Order] using hp, ?_⟩, ?_⟩
    · by_cases hk : o.keygen = true
      · simp [hk, Wanted, hf, hc]
      · simp only [Bool.not_eq_true] at hk; simp [hk] at ho; simp [hk, Wanted, hf, ho, hc]
    · refine safe_mono _ _ _ _ (safe_fetch
        (g := ⟨if o.keygen then .keygenEnroll o.cn else .enroll o.cn, b⟩) (by simp) (by split <;> trivial)) ?_
      intro rv h' ha
      exact attempted_trans ⟨_, rfl⟩ ha

theorem safe_simple {o : Opts} {tid i : Nat} {h : List Ev} {B : Prop} (hc : o.getcsr = false)
    (ho : o.enroll = true ∨ o.keygen = true) :
    Safe (Fine o tid i) OutOfBounds B (Attempted h) (simpleAttempt o tid i) h := by
  unfold simpleAttempt
  split
  · rename_i hf
    intro a
    refine ⟨⟨trivial, hf, hc⟩, ?_⟩
    bsplit
    · rename_i ha
      exact attempted_one (x := ⟨.forcePop, a⟩) ha
    · rename_i ha
      refine safe_mono _ _ _ _ (safe_simpleGo hc ho (fun _ => ⟨⟨.forcePop, a⟩, by simp, rfl, by simpa using ha⟩)) ?_
      intro rv h' hh
      exact attempted_trans ⟨_, rfl⟩ hh
  · rename_i hf
    exact safe_simpleGo hc ho (fun hh => absurd hh hf)

theorem safe_loop {o : Opts} {tid i : Nat} : ∀ (f n : Nat) (h : List Ev),
    Safe (Fine o tid i) OutOfBounds True (fun _ h' => ∃ l, h' = h ++ l) (attrLoop f n) h
  | 0, 0, h => ⟨[], by simp⟩
  | _ + 1, 0, h => ⟨[], by simp⟩
  | 0, _ + 1, _ => trivial
  | f + 1, n + 1, h => by
    intro a
    refine ⟨⟨trivial, trivial⟩, ?_⟩
    have go : ∀ (l : List Ev), Safe (Fine o tid i) OutOfBounds True (fun _ h' => ∃ l, h' = h ++ l) (attrLoop f a.len) (h ++ l) := by
      intro l
      refine safe_mono _ _ _ _ (safe_loop f a.len (h ++ l)) ?_
      rintro _ h' ⟨l2, rfl⟩
      exact ⟨l ++ l2, by simp⟩
    bsplit
    · exact go _
    · bsplit
      · intro b; refine ⟨⟨trivial, trivial⟩, ?_⟩; rw [List.append_assoc]; exact go _
      · bsplit
        · intro b; refine ⟨⟨trivial, trivial⟩, ?_⟩; rw [List.append_assoc]; exact go _
        · bsplit
          · exact go _
          · intro b; refine ⟨⟨trivial, trivial⟩, ?_⟩; rw [List.append_assoc]; exact go _

theorem safe_weak {α : Type} {Ok : List Ev → Ev → Prop} {U : List Ev → Prop} {A B : Prop} {Q : α → List Ev → Prop} (hab : A → B) :
    ∀ (p : Prog α) (h : List Ev), Safe Ok U A Q p h → Safe Ok U B Q p h := by
  intro p
  induction p with
  | ret a => intro h hp; exact hp
  | exit n => intro h _; trivial
  | ub => intro h hp; exact hp
  | busy => intro h hp; exact hab hp
  | ask c k ih => intro h hp a; exact ⟨(hp a).1, ih a _ (hp a).2⟩

theorem safe_regular {o : Opts} {tid i f : Nat} {h : List Ev} (hc : o.getcsr = true)
    (ho : o.enroll = true ∨ o.keygen = true) :
    Safe (Fine o tid i) OutOfBounds (Loops o) (Attempted h) (regularAttempt o tid i f) h := by
  intro g
  refine ⟨⟨trivial, hc⟩, ?_⟩
  bsplit
  · rename_i hg
    exact attempted_one (x := ⟨.getAttrs, g⟩) (by
      intro hh
      change g.rc = .none at hh
      simp [attrsFine, hh] at hg)
  · intro r
    refine ⟨⟨trivial, trivial⟩, ?_⟩
    bsplit
    · rename_i hr
      exact attempted_trans ⟨_, rfl⟩ (attempted_ptr (x := ⟨.newReq, r⟩) (by simpa using hr) (by simp))
    · intro p
      refine ⟨⟨trivial, trivial⟩, ?_⟩
      bsplit
      · rename_i hr
        exact attempted_trans ⟨_, by rw [List.append_assoc]⟩ (attempted_ptr (x := ⟨.populate [69, 83, 84, 45, 99, 108, 105, 101, 110, 116], p⟩) (by simpa using hr) (by simp))
      · intro d
        refine ⟨⟨trivial, trivial⟩, ?_⟩
        bsplit
        · rename_i hr
          exact attempted_trans ⟨_, by rw [List.append_assoc, List.append_assoc]⟩ (attempted_one (x := ⟨.decodeAttrs, d⟩) hr)
        · refine safe_bind _ _ _ _ (safe_weak (fun _ => ⟨hc, ho⟩) _ _ (safe_loop _ _ _)) ?_
          rintro _ h' ⟨l, rfl⟩ b
          refine ⟨⟨by by_cases hk : o.keygen = true <;> simp [hk, Order], ?_⟩, ?_⟩
          · by_cases hk : o.keygen = true
            · simp [hk, Wanted, hc]
            · simp only [Bool.not_eq_true] at hk; simp [hk] at ho; simp [hk, Wanted, ho, hc]
          · refine safe_mono _ _ _ _ (safe_fetch
              (g := ⟨if o.keygen then .keygenEnrollCsr true else .enrollCsr true, b⟩) (by simp) (by split <;> trivial)) ?_
            intro rv h' ha
            exact attempted_trans ⟨_, by rw [List.append_assoc, List.append_assoc, List.append_assoc, List.append_assoc, List.append_assoc]⟩ ha

theorem safe_delay {o : Opts} {tid i : Nat} {h : List Ev} {B : Prop} (d t : Int) :
    Safe (Fine o tid i) OutOfBounds B (fun _ h' => ∃ l, h' = h ++ l) (delay d t) h := by
  unfold delay
  split
  · intro a; exact ⟨⟨trivial, trivial⟩, ⟨_, rfl⟩⟩
  · split
    · intro n
      refine ⟨⟨trivial, trivial⟩, ?_⟩
      bsplit
      · exact ⟨_, rfl⟩
      · bsplit
        · intro a; exact ⟨⟨trivial, trivial⟩, ⟨_, by rw [List.append_assoc]⟩⟩
        · exact ⟨_, rfl⟩
    · exact ⟨[], by simp⟩

theorem safe_again {α : Type} {o : Opts} {tid i : Nat} {B : Prop} {Q : List Ev → α → List Ev → Prop} (rc : α → EstErr) (p : Prog α)
    (hp : ∀ h, Safe (Fine o tid i) OutOfBounds B (Q h) p h)
    (ht : ∀ h l a h', Q (h ++ l) a h' → Q h a h') (he : ∀ h a h', Q h a h' → ∃ l, h' = h ++ l) (h : List Ev) :
    Safe (Fine o tid i) OutOfBounds B (Q h) (again rc p) h := by
  refine safe_bind _ _ _ _ (hp h) ?_
  intro a h' ha
  bsplit
  · obtain ⟨l, rfl⟩ := he _ _ _ ha
    intro r
    refine ⟨⟨trivial, trivial⟩, ?_⟩
    refine safe_bind (fun _ h' => ∃ l2, h' = h ++ l ++ [⟨.copyRetry, r⟩] ++ l2) _ _ _ ?_ ?_
    · bsplit
      · exact safe_delay _ _
      · exact ⟨[], by simp⟩
    · rintro _ h' ⟨l2, rfl⟩
      refine safe_mono _ _ _ _ (hp _) ?_
      intro a h'' hq
      exact ht _ (l ++ [⟨.copyRetry, r⟩] ++ l2) a h'' (by simpa using hq)
  · exact ha

/-- What the part of a round that gets CA certificates leaves. -/
def CaDone (o : Opts) (h : List Ev) (s : St) (h' : List Ev) : Prop :=
  (∃ l, h' = h ++ l) ∧ (s.rv ≠ .none → Trouble h' s.rv) ∧
  (o.getcert = true → s.op = 1 ∧ (s.rv = .none → ∃ y : Ans, ⟨.copyCacerts, y⟩ ∈ h' ∧ y.rc = .none)) ∧
  (o.getcert = false → s = ⟨0, .none⟩ ∧ h' = h)

theorem safe_ca {o : Opts} {tid i : Nat} {h : List Ev} {B : Prop} (hh : ∀ x ∈ h, OfSetUp x.call) :
    Safe (Fine o tid i) OutOfBounds B (CaDone o h) (caPart o tid i) h := by
  unfold caPart
  split
  · rename_i hg
    intro g
    refine ⟨⟨trivial, hg⟩, ?_⟩
    bsplit
    · rename_i hr
      exact ⟨⟨_, rfl⟩, fun _ => ⟨⟨.getCacerts, g⟩, by simp, .inl rfl⟩, fun _ => ⟨rfl, fun h => absurd h hr⟩, by simp [hg]⟩
    · rename_i hr
      have hr' : g.rc = .none := by simpa using hr
      intro m
      refine ⟨⟨trivial, trivial⟩, ?_⟩
      bsplit
      · rename_i hm
        exact .inl ⟨⟨.alloc g.len, m⟩, by simp, g.len, rfl, by simpa using hm⟩
      · intro y
        refine ⟨⟨?_, trivial⟩, ?_⟩
        · intro x hx
          simp only [List.mem_append, List.mem_singleton] at hx
          rcases hx with (hx | rfl) | rfl
          · have := hh x hx
            cases hc : x.call <;> simp_all [OfSetUp, IsEnrol]
          · simp [IsEnrol]
          · simp [IsEnrol]
        · have key : ∀ b, Filled g.len y b → ∀ h2 n b', Stored o [99, 97, 99, 101, 114, 116] tid i (h ++ [⟨.getCacerts, g⟩] ++ [⟨.alloc g.len, m⟩] ++ [⟨.copyCacerts, y⟩] ++ h2) b n b' →
              FileOk o tid i (h ++ [⟨.getCacerts, g⟩] ++ [⟨.alloc g.len, m⟩] ++ [⟨.copyCacerts, y⟩] ++ h2) n b' := by
            intro b hb h2 n b' hst
            exact .inr (.inr (.inr ⟨g, m, y, b, sub3 (by simp), hr', hb, hst⟩))
          bsplit
          · rename_i hy
            refine safe_bind _ _ _ _ (safe_saveCert (key _ (filled_bad hy))) ?_
            rintro _ h' ⟨h2, rfl⟩
            exact ⟨⟨_, by rw [List.append_assoc, List.append_assoc, List.append_assoc]⟩, fun _ => ⟨⟨.copyCacerts, y⟩, by simp, .inl rfl⟩,
              fun _ => ⟨rfl, fun h => absurd h hy⟩, by simp [hg]⟩
          · rename_i hy
            bsplit
            · rename_i hl
              exact copy_outOfBounds (by simp) hy hl
            · rename_i hl
              refine safe_bind _ _ _ _ (safe_saveCert (key _ (filled_ok hy hl))) ?_
              rintro _ h' ⟨h2, rfl⟩
              exact ⟨⟨_, by rw [List.append_assoc, List.append_assoc, List.append_assoc]⟩, fun h => absurd rfl h,
                fun _ => ⟨rfl, fun _ => ⟨y, by simp, by simpa using hy⟩⟩, by simp [hg]⟩
  · rename_i hg
    exact ⟨⟨[], by simp⟩, fun h => absurd rfl h, fun h => absurd h hg, fun _ => ⟨rfl, rfl⟩⟩

/-- What the part of a round that enrols leaves. -/
def EnrolDone (o : Opts) (h : List Ev) (s s' : St) (h' : List Ev) : Prop :=
  (∃ l, h' = h ++ l) ∧
  (if o.enroll || o.keygen then
    s'.op = (if o.getcsr then (if o.keygen then 3 else 2) else (if o.keygen then 5 else 4)) ∧
    (s'.rv = .none → ∃ y : Ans, ⟨.copyCert, y⟩ ∈ h' ∧ y.rc = .none) ∧ (s'.rv ≠ .none → Trouble h' s'.rv)
  else if o.getcsr then
    s'.op = 6 ∧ (s'.rv = .none → ∃ y : Ans, ⟨.getAttrs, y⟩ ∈ h' ∧ y.rc = .none) ∧ (s'.rv ≠ .none → Trouble h' s'.rv)
  else s' = s ∧ h' = h)

theorem attempted_comp (h l : List Ev) (a : EstErr) (h' : List Ev) (ha : Attempted (h ++ l) a h') : Attempted h a h' :=
  attempted_trans ⟨_, rfl⟩ ha

theorem safe_enrollPart {o : Opts} {tid i f : Nat} {h : List Ev} (s : St) :
    Safe (Fine o tid i) OutOfBounds (Loops o) (EnrolDone o h s) (enrollPart o tid i f s) h := by
  unfold enrollPart
  split
  · rename_i hc
    simp only [Bool.and_eq_true, Bool.or_eq_true] at hc
    refine safe_bind _ _ _ _ (safe_again (Q := Attempted) _ _ (fun h => safe_regular hc.2 hc.1) attempted_comp (fun _ _ _ h => h.1) h) ?_
    intro rv h' ha
    refine ⟨ha.1, ?_⟩
    rw [if_pos (by simpa using hc.1), if_pos hc.2]
    exact ⟨rfl, ha.2.1, ha.2.2⟩
  · split
    · rename_i _ hc
      simp only [Bool.and_eq_true, Bool.or_eq_true, Bool.not_eq_true'] at hc
      refine safe_bind _ _ _ _ (safe_again (Q := Attempted) _ _ (fun h => safe_simple hc.2 hc.1) attempted_comp (fun _ _ _ h => h.1) h) ?_
      intro rv h' ha
      refine ⟨ha.1, ?_⟩
      rw [if_pos (by simpa using hc.1), hc.2]
      exact ⟨rfl, ha.2.1, ha.2.2⟩
    · rename_i h1 h2
      have hne : (o.enroll || o.keygen) = false := by
        cases ha : (o.enroll || o.keygen) <;> cases hb : o.getcsr <;> simp_all
      split
      · rename_i hc
        simp only [Bool.and_eq_true, Bool.not_eq_true'] at hc
        refine safe_bind (fun rv h' => (∃ l, h' = h ++ l) ∧ (rv = .none → ∃ y : Ans, ⟨.getAttrs, y⟩ ∈ h' ∧ y.rc = .none) ∧
          (rv ≠ .none → Trouble h' rv)) _ _ _ ?_ ?_
        · intro g
          refine ⟨⟨trivial, hc.2⟩, ?_⟩
          bsplit
          · exact ⟨⟨_, rfl⟩, fun hr => ⟨g, by simp, hr⟩, fun _ => ⟨⟨.getAttrs, g⟩, by simp, .inl rfl⟩⟩
          · rename_i hg
            intro a
            refine ⟨⟨.inl ⟨g, by simp, ?_, rfl, by simp [cut]⟩, trivial⟩, ?_⟩
            · simp [attrsFine] at hg
              cases hr : g.rc <;> simp_all
            · exact ⟨⟨_, by rw [List.append_assoc]⟩, fun hr => ⟨g, by simp, hr⟩, fun _ => ⟨⟨.getAttrs, g⟩, by simp, .inl rfl⟩⟩
        · intro rv h' ha
          refine ⟨ha.1, ?_⟩
          rw [if_neg (by rw [hne]; simp), if_pos hc.2]
          exact ⟨rfl, ha.2⟩
      · rename_i hc
        refine ⟨⟨[], by simp⟩, ?_⟩
        rw [if_neg (by rw [hne]; simp), if_neg (by
          simp only [Bool.or_eq_false_iff] at hne
          simpa [hne.1] using hc)]
        exact ⟨rfl, rfl⟩

/-- What the part of a round that re-enrols leaves. -/
def ReenrolDone (o : Opts) (h : List Ev) (s s' : St) (h' : List Ev) : Prop :=
  (∃ l, h' = h ++ l) ∧
  (if o.reenroll then
    s'.op = 7 ∧ (s'.rv = .none → ∃ y : Ans, ⟨.copyCert, y⟩ ∈ h' ∧ y.rc = .none) ∧ (s'.rv ≠ .none → Trouble h' s'.rv)
  else s' = s ∧ h' = h)

theorem safe_reenrollPart {o : Opts} {tid i : Nat} {h : List Ev} {B : Prop} (s : St) :
    Safe (Fine o tid i) OutOfBounds B (ReenrolDone o h s) (reenrollPart o tid i s) h := by
  unfold reenrollPart
  split
  · rename_i ho
    refine safe_bind (fun a h' => (∃ l, h' = h ++ l) ∧ (⟨.reenroll, a⟩ : Ev) ∈ h') _ _ _
      (safe_again (Q := fun h a h' => (∃ l, h' = h ++ l) ∧ (⟨.reenroll, a⟩ : Ev) ∈ h') _ _ ?_ ?_ ?_ h) ?_
    · intro h a
      exact ⟨⟨trivial, ho⟩, ⟨⟨_, rfl⟩, by simp⟩⟩
    · rintro h l a h' ⟨⟨l2, rfl⟩, h2⟩
      exact ⟨⟨l ++ l2, by simp⟩, h2⟩
    · intro h a h' hh; exact hh.1
    · rintro g h' ⟨⟨l, rfl⟩, hg⟩
      have done : ∀ (rv : EstErr) (h'' : List Ev), (∃ l, h'' = h ++ l) → (rv = .none → ∃ y : Ans, ⟨.copyCert, y⟩ ∈ h'' ∧ y.rc = .none) →
          (rv ≠ .none → Trouble h'' rv) → ReenrolDone o h s ⟨7, rv⟩ h'' := by
        intro rv h'' h1 h2 h3
        refine ⟨h1, ?_⟩
        rw [if_pos ho]
        exact ⟨rfl, h2, h3⟩
      bsplit
      · rename_i hr
        exact done _ _ ⟨_, rfl⟩ (fun h => absurd h hr) (fun _ => ⟨_, hg, .inl rfl⟩)
      · rename_i hr
        have hr' : g.rc = .none := by simpa using hr
        intro m
        refine ⟨⟨trivial, trivial⟩, ?_⟩
        bsplit
        · rename_i hm
          exact .inl ⟨⟨.alloc g.len, m⟩, by simp, g.len, rfl, by simpa using hm⟩
        · intro y
          refine ⟨⟨⟨⟨.reenroll, g⟩, by simp only [List.mem_append] at hg ⊢; exact .inl hg, .inr rfl, hr'⟩, trivial⟩, ?_⟩
          have key : ∀ b, Filled g.len y b → ∀ h2 n b', Stored o [99, 101, 114, 116] tid i (h ++ l ++ [⟨.alloc g.len, m⟩] ++ [⟨.copyCert, y⟩] ++ h2) b n b' →
              FileOk o tid i (h ++ l ++ [⟨.alloc g.len, m⟩] ++ [⟨.copyCert, y⟩] ++ h2) n b' := by
            intro b hb h2 n b' hst
            exact .inr (.inr (.inl ⟨⟨.reenroll, g⟩, m, y, b, sub3 hg, .inr rfl, hr', hb, hst⟩))
          bsplit
          · rename_i hy
            refine safe_bind _ _ _ _ (safe_saveCert (key _ (filled_bad hy))) ?_
            rintro _ h' ⟨h2, rfl⟩
            exact done _ _ ⟨_, by rw [List.append_assoc, List.append_assoc, List.append_assoc]⟩ (fun h => absurd h hy)
              (fun _ => ⟨⟨.copyCert, y⟩, by simp, .inl rfl⟩)
          · rename_i hy
            bsplit
            · rename_i hl
              exact copy_outOfBounds (by simp) hy hl
            · rename_i hl
              refine safe_bind _ _ _ _ (safe_saveCert (key _ (filled_ok hy hl))) ?_
              rintro _ h' ⟨h2, rfl⟩
              exact done _ _ ⟨_, by rw [List.append_assoc, List.append_assoc, List.append_assoc]⟩
                (fun _ => ⟨y, by simp, by simpa using hy⟩) (fun h => absurd rfl h)
  · rename_i ho
    refine ⟨⟨[], by simp⟩, ?_⟩
    rw [if_neg ho]
    exact ⟨rfl, rfl⟩

/-- After all parts of a round: the last operation, its success or the reason why not. -/
def Settled (o : Opts) (s : St) (h : List Ev) : Prop :=
  s.op = LastOp o ∧ (s.rv = .none → Success o h) ∧ (s.rv ≠ .none → Trouble h s.rv)

theorem settled {o : Opts} {h h1 h2 h3 : List Ev} {s1 s2 s3 : St} (d1 : CaDone o h s1 h1) (d2 : EnrolDone o h1 s1 s2 h2)
    (d3 : ReenrolDone o h2 s2 s3 h3) : Settled o s3 h3 := by
  obtain ⟨_, d3⟩ := d3
  obtain ⟨_, d2⟩ := d2
  obtain ⟨_, c1, c2, c3⟩ := d1
  unfold Settled LastOp Success
  by_cases hr : o.reenroll = true
  · rw [if_pos hr] at d3
    rw [if_pos hr, if_pos hr]
    exact d3
  · rw [if_neg hr] at d3
    rw [if_neg hr, if_neg hr]
    obtain ⟨rfl, rfl⟩ := d3
    by_cases he : (o.enroll || o.keygen) = true
    · rw [if_pos he] at d2
      rw [if_pos he, if_pos he]
      exact d2
    · rw [if_neg he] at d2
      rw [if_neg he, if_neg he]
      by_cases hg : o.getcsr = true
      · rw [if_pos hg] at d2
        rw [if_pos hg, if_pos hg]
        exact d2
      · rw [if_neg hg] at d2
        rw [if_neg hg, if_neg hg]
        obtain ⟨rfl, rfl⟩ := d2
        by_cases hc : o.getcert = true
        · rw [if_pos hc, if_pos hc]
          exact ⟨(c2 hc).1, (c2 hc).2, c1⟩
        · rw [if_neg hc, if_neg hc]
          obtain ⟨rfl, rfl⟩ := c3 (by simpa using hc)
          exact ⟨rfl, fun _ => trivial, c1⟩

/-- A round has reported a failure, or the last operation has succeeded. -/
def Told (o : Opts) (h : List Ev) : Prop := (∃ x ∈ h, ∃ n e, x.call = .failed n e) ∨ Success o h

theorem success_mono {o : Opts} {h l : List Ev} (hs : Success o h) : Success o (h ++ l) := by
  unfold Success at hs ⊢
  split
  · rename_i hh; rw [if_pos hh] at hs; obtain ⟨y, h1, h2⟩ := hs; exact ⟨y, by simp [h1], h2⟩
  · rename_i hh; rw [if_neg hh] at hs
    split
    · rename_i hh; rw [if_pos hh] at hs; obtain ⟨y, h1, h2⟩ := hs; exact ⟨y, by simp [h1], h2⟩
    · rename_i hh; rw [if_neg hh] at hs
      split
      · rename_i hh; rw [if_pos hh] at hs; obtain ⟨y, h1, h2⟩ := hs; exact ⟨y, by simp [h1], h2⟩
      · rename_i hh; rw [if_neg hh] at hs
        split
        · rename_i hh; rw [if_pos hh] at hs; obtain ⟨y, h1, h2⟩ := hs; exact ⟨y, by simp [h1], h2⟩
        · trivial

theorem safe_use {o : Opts} {tid i f : Nat} {h : List Ev} (hh : ∀ x ∈ h, OfSetUp x.call) :
    Safe (Fine o tid i) OutOfBounds (Loops o) (fun _ h' => Told o h') (use o tid i f) h := by
  refine safe_bind _ _ _ _ (safe_ca hh) ?_
  intro s1 h1 d1
  refine safe_bind _ _ _ _ (safe_enrollPart s1) ?_
  intro s2 h2 d2
  refine safe_bind _ _ _ _ (safe_reenrollPart s2) ?_
  intro s3 h3 d3
  obtain ⟨a1, a2, a3⟩ := settled d1 d2 d3
  unfold finish
  split
  · rename_i hr
    intro a
    refine ⟨⟨⟨a1, hr, a3 hr⟩, trivial⟩, fun b => ⟨⟨trivial, trivial⟩, .inl ⟨⟨.failed s3.op s3.rv, a⟩, by simp, _, _, rfl⟩⟩⟩
  · rename_i hr
    intro a
    exact ⟨⟨trivial, trivial⟩, .inr (success_mono (a2 (by simpa using hr)))⟩

theorem fine_setup {o : Opts} {tid i : Nat} {h : List Ev} {x : Ev} (hx : OfSetUp x.call) : Fine o tid i h x := by
  unfold Fine Order Wanted
  cases hc : x.call <;> simp_all [OfSetUp]

/-- All that is known of the calls of a round. -/
theorem iter_fine {o : Opts} {tid i f : Nat} {t : List Ev} {e : End Unit} (h : Can (iteration o tid i f) t e) :
    (∀ a x b, t = a ++ x :: b → Fine o tid i a x) ∧ (e = .ret () → Told o t) ∧ (e = .ub → OutOfBounds t) ∧
    (e = .busy → Loops o) := by
  rcases iter_parts h with ⟨h1, rfl⟩ | ⟨tc, tu, rfl, h1, h2⟩
  · refine ⟨?_, by simp, by simp, by simp⟩
    rintro a x b rfl
    exact fine_setup (lastbad_ofSetUp h1 x (by simp))
  · obtain ⟨f1, f2, f3, f4⟩ := safe_can _ _ _ _ _ _ _ _ (safe_use (allok_ofSetUp h1)) h2
    refine ⟨?_, fun he => f2 () he, f3, f4⟩
    intro a x b hh
    rcases List.append_eq_append_iff.1 hh with ⟨l, rfl, h3⟩ | ⟨l, rfl, h3⟩
    · exact f1 l x b h3
    · cases l with
      | nil =>
        rw [List.append_nil] at *
        have := f1 [] x b (by simpa using h3.symm)
        simpa using this
      | cons y l =>
        simp only [List.cons_append, List.cons.injEq] at h3
        exact fine_setup (allok_ofSetUp h1 x (by rw [h3.1]; simp))

end Verif.SampleCli
