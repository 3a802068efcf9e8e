import Verif.InitModel
import Verif.ClientMemLemmas

/-!
# The functions that create a context, and the blocks they own
-/
namespace Verif.Init
open Verif.ClientMem (Mem Heap alloc allocIf free use Spec AllOk spec_pure spec_lose spec_perm
  spec_post spec_call spec_alloc spec_free spec_free_none spec_free_opt spec_last spec_frame
  at0 at1 at2 at3 at4 at5)
open Verif.Tls (subjFld)
open Verif.Setter (strcpyS zeros)

variable {ok : Nat → Bool} {G : Prop}

/-- The blocks of a context. -/
def owned (c : Ctx) : List Nat :=
  c.self :: ((c.store.map (fun x => x.1)).toList ++ (c.ca.map (fun x => x.1)).toList ++
    (c.raw.map (fun x => x.1)).toList ++ c.table.toList ++ c.reqs.toList)

/-- Two lists built from the same pieces in different order. -/
macro "iperm" : tactic => `(tactic| first
  | exact List.Perm.refl _
  | (rw [List.perm_iff_count]; intro x
     simp only [owned, List.count_append, List.count_cons, List.count_nil, Option.toList,
       Option.map] <;> omega))

/-- The certificates that the PEM reader finds. -/
def certsIn (lib : Lib) (raw : List Nat) : List (List Nat) :=
  ((lib.pem raw).getD []).filterMap Item.cert

/-- The CRLs that the PEM reader finds. -/
def crlsIn (lib : Lib) (raw : List Nat) : List (List Nat) :=
  ((lib.pem raw).getD []).filterMap Item.crl

/-- The subjects of these certificates have at most 254 characters. -/
def Short (lib : Lib) (cs : List (List Nat)) : Prop := ∀ c ∈ cs, (lib.subject c).length < 255

theorem subjFld_short (t : List Nat) (h : t.length < 255) :
    ∃ b, subjFld (List.replicate 255 0) 255 t = .bytes b := by
  have hk : (if t.length > 255 then 255 else t.length) = t.length := if_neg (by omega)
  unfold subjFld Verif.Tls.putZero
  simp only [hk]
  rw [if_neg (by rw [List.length_replicate]; omega), if_pos h]
  refine ⟨_, if_pos ?_⟩
  rw [List.length_append, List.length_take, List.length_drop, List.length_replicate]
  omega

theorem logSubject_spec (lib : Lib) (c : List Nat) (h : (lib.subject c).length < 255) :
    Spec ok G [] (logSubject lib c) (fun _ => []) (fun _ => True) := by
  obtain ⟨b, hb⟩ := subjFld_short _ h
  unfold logSubject
  al
  · al
    · rw [hb]
      fr
      exact spec_last
    · exact spec_last
  · al
    · exact spec_last
    · exact spec_pure (.refl _) trivial

theorem addItems_spec (lib : Lib) (is : List Item) (h : Short lib (is.filterMap Item.cert)) :
    Spec ok G [] (addItems lib is) (fun _ => [])
      (fun r => r = (is.filterMap Item.cert, is.filterMap Item.crl)) := by
  induction is with
  | nil => exact spec_pure (.refl _) rfl
  | cons i is ih =>
    have ih' := ih (fun c hc => h c (by
      rw [List.filterMap_cons]
      cases hi : i.cert with
      | none => exact hc
      | some d => exact List.mem_cons_of_mem _ hc))
    have hl : Spec ok G [] (logItem lib i) (fun _ => []) (fun _ => True) := by
      unfold logItem
      cases hi : i.cert with
      | none => exact spec_pure (.refl _) trivial
      | some d =>
        exact logSubject_spec lib d (h d (by rw [List.filterMap_cons, hi]; exact List.mem_cons_self ..))
    unfold addItems
    refine spec_call hl (D := []) (.refl _) ?_
    intro _ _
    refine spec_call ih' (D := []) (.refl _) ?_
    rintro ⟨cs, ls⟩ hr
    cases hr
    refine spec_pure (.refl _) ?_
    rw [List.filterMap_cons, List.filterMap_cons]
    cases i.cert <;> cases i.crl <;> rfl

theorem fromRaw_spec (lib : Lib) (raw : List Nat) (h : Short lib (certsIn lib raw)) :
    Spec ok G [] (fromRaw lib raw) (fun _ => [])
      (fun r => r = (certsIn lib raw, crlsIn lib raw) ∨ ¬ AllOk ok ∧ r = ([], [])) := by
  unfold fromRaw
  al
  · next b =>
    cases hp : lib.pem raw with
    | none =>
      dsimp only
      fr
      exact spec_pure (.refl _) (.inl (by simp [certsIn, crlsIn, hp]))
    | some items =>
      dsimp only
      al
      · next sk =>
        fr
        refine spec_call (addItems_spec lib items (by simpa [certsIn, hp] using h))
          (P := []) (D := [sk]) (.refl _) ?_
        intro r hr
        fr
        exact spec_pure (.refl _) (.inl (by rw [hr]; simp [certsIn, crlsIn, hp]))
      · next hn =>
        fr
        exact spec_pure (.refl _) (.inr ⟨hn, rfl⟩)
  · next hn => exact spec_pure (.refl _) (.inr ⟨hn, rfl⟩)

/-- What `est_load_trusted_certs` does to a context. -/
structure Trusted (lib : Lib) (ok : Nat → Bool) (raw : List Nat) (c : Ctx) (r : EstErr × Ctx) :
    Prop where
  rest : r.2 = { c with store := r.2.store }
  good : r.1 = .none →
    certsIn lib raw ≠ [] ∧ ∃ st, r.2.store = some (st, certsIn lib raw, crlsIn lib raw)
  works : AllOk ok → certsIn lib raw ≠ [] → r.1 = .none

theorem loadTrusted_spec (lib : Lib) (c : Ctx) (raw : List Nat) (h : Short lib (certsIn lib raw))
    (hc : c.store = none) :
    Spec ok G (owned c) (loadTrusted lib c raw) (fun r => owned r.2) (Trusted lib ok raw c) := by
  unfold loadTrusted
  al
  · next st =>
    refine spec_call (fromRaw_spec lib raw h) (P := []) (D := st :: owned c) (.refl _) ?_
    rintro ⟨cs, ls⟩ hr
    dsimp only
    have hperm : (st :: owned c).Perm (owned { c with store := some (st, cs, ls) }) := by
      unfold owned
      rw [hc]
      exact .swap ..
    split
    · next he =>
      have hcs : cs = [] := List.eq_nil_of_length_eq_zero he
      refine spec_pure hperm ⟨rfl, fun e => by simp at e, fun ha hne => ?_⟩
      rcases hr with hr | hr
      · exact absurd ((Prod.mk.inj hr).1.symm.trans hcs) hne
      · exact absurd ha hr.1
    · next he =>
      refine spec_pure hperm ⟨rfl, fun _ => ?_, fun _ _ => rfl⟩
      rcases hr with hr | hr
      · obtain ⟨h1, h2⟩ := Prod.mk.inj hr
        subst h1 h2
        exact ⟨fun e => he (by rw [e]; rfl), st, rfl⟩
      · exact absurd (by rw [(Prod.mk.inj hr.2).1]; rfl) he
  · next hn => exact spec_pure (.refl _) ⟨by rw [], fun e => by simp at e, fun ha => absurd ha hn⟩

theorem addCerts_spec (lib : Lib) (raw : List Nat) :
    Spec ok G [] (addCerts lib raw) (fun _ => [])
      (fun r => (∀ cs, r = some cs → (lib.pem raw).isSome = true ∧ cs = certsIn lib raw) ∧
        (AllOk ok → (lib.pem raw).isSome = true → r ≠ none)) := by
  unfold addCerts
  cases hp : lib.pem raw with
  | none => exact spec_pure (.refl _) ⟨fun _ e => by simp at e, fun _ e => by simp at e⟩
  | some items =>
    dsimp only
    al
    · fr
      exact spec_pure (.refl _) ⟨fun cs e => ⟨rfl, by
        rw [← Option.some.inj e]; simp [certsIn, hp]⟩, fun _ _ => by simp⟩
    · next hn =>
      exact spec_pure (.refl _) ⟨fun _ e => by simp at e, fun ha => absurd ha hn⟩

/-- The text of the answer to `cacerts` that is made from this buffer. -/
def Renders (lib : Lib) (raw t : List Nat) : Prop :=
  lib.asn1 = true ∧ (lib.pem raw).isSome = true ∧ lib.p7 (certsIn lib raw) = some t

theorem getP7_spec (lib : Lib) (raw : List Nat)
    (hG : G ∨ (AllOk ok ∧ lib.asn1 = true ∧ (lib.pem raw).isSome = true)) :
    Spec ok G [] (getP7 lib raw) (fun r => r.elim [] (fun x => x.1))
      (fun r => (∀ b t, r = some (b, t) → t ≠ [] → Renders lib raw t) ∧
        (AllOk ok → ∀ t, Renders lib raw t → ∃ b, r = some (b, t))) := by
  unfold getP7
  al
  · next p7 =>
    al
    · next p7s =>
      split
      · next ha =>
        have ha' : lib.asn1 ≠ true := by simpa using ha
        have hg : G := hG.resolve_right (fun x => ha' x.2.1)
        fr
        exact spec_lose [p7s] hg (.refl _)
          ⟨fun _ _ e => by simp at e, fun _ t ht => absurd ht.1 ha'⟩
      · next ha =>
        have ha' : lib.asn1 = true := by simpa using ha
        al
        · next stk =>
          refine spec_call (addCerts_spec lib raw) (P := []) (D := [stk, p7s, p7]) (.refl _) ?_
          intro r hr
          cases r with
          | none =>
            dsimp only [List.nil_append]
            have hg : G := hG.resolve_right (fun x => hr.2 x.1 x.2.2 rfl)
            fr
            refine spec_lose [stk, p7s] hg (.refl _)
              ⟨fun _ _ e => by simp at e, fun hall t ht => absurd rfl (hr.2 hall ht.2.1)⟩
          | some cs =>
            dsimp only [List.nil_append]
            obtain ⟨hp, hcs⟩ := hr.1 cs rfl
            al
            · next out =>
              al
              · next b64 =>
                cases h7 : lib.p7 cs with
                | none =>
                  dsimp only
                  fr; fr; fr; fr; fr
                  refine spec_pure (.refl _) ⟨fun _ _ e => by simp at e, fun _ t ht => ?_⟩
                  rw [hcs] at h7
                  exact absurd (h7.symm.trans ht.2.2) (by simp)
                | some t =>
                  dsimp only
                  fr; fr; fr
                  refine spec_pure (.refl _) ⟨fun b u e _ => ?_, fun _ u hu => ?_⟩
                  · have := (Prod.mk.inj (Option.some.inj e)).2
                    subst this
                    exact ⟨ha', hp, hcs ▸ h7⟩
                  · have := hu.2.2
                    rw [← hcs, h7] at this
                    exact ⟨_, by rw [Option.some.inj this]⟩
              · next hn =>
                have hg : G := hG.resolve_right (fun x => hn x.1)
                fr
                refine spec_lose [stk, p7s] hg (.refl _) ⟨fun b u e hu => ?_, fun ha => absurd ha hn⟩
                exact absurd (Prod.mk.inj (Option.some.inj e)).2.symm hu
            · next hn =>
              have hg : G := hG.resolve_right (fun x => hn x.1)
              fr
              exact spec_lose [stk, p7s] hg (.refl _)
                ⟨fun _ _ e => by simp at e, fun ha => absurd ha hn⟩
        · next hn =>
          have hg : G := hG.resolve_right (fun x => hn x.1)
          fr
          exact spec_lose [p7s] hg (.refl _) ⟨fun _ _ e => by simp at e, fun ha => absurd ha hn⟩
    · next hn =>
      fr
      exact spec_pure (.refl _) ⟨fun _ _ e => by simp at e, fun ha => absurd ha hn⟩
  · next hn => exact spec_pure (.refl _) ⟨fun _ _ e => by simp at e, fun ha => absurd ha hn⟩

theorem freeAll_spec (l : List Nat) :
    Spec ok G l (freeAll l) (fun _ => []) (fun _ => True) := by
  induction l with
  | nil => exact spec_pure (.refl _) trivial
  | cons p ps ih => exact spec_free (.refl _) ih

/-- What `est_load_ca_certs` does to a context. -/
structure Loaded (lib : Lib) (ok : Nat → Bool) (raw : List Nat) (c : Ctx) (r : EstErr × Ctx) :
    Prop where
  rest : r.2 = { c with ca := r.2.ca }
  bad : r.1 ≠ .none → r.2 = c
  good : r.1 = .none → ∃ p t, r.2.ca = some (p, t) ∧ t ≠ [] ∧ Renders lib raw t
  works : AllOk ok → ∀ t, Renders lib raw t → t ≠ [] → r.1 = .none

theorem loadCa_spec (lib : Lib) (c : Ctx) (raw : List Nat) (hc : c.ca = none)
    (hG : G ∨ (AllOk ok ∧ lib.asn1 = true ∧ (lib.pem raw).isSome = true)) :
    Spec ok G (owned c) (loadCa lib c raw) (fun r => owned r.2) (Loaded lib ok raw c) := by
  have fails : (AllOk ok → ∀ t, Renders lib raw t → t ≠ [] → False) →
      Loaded lib ok raw c (.loadCacerts, c) := fun h =>
    ⟨rfl, fun _ => rfl, fun e => by simp at e, fun ha t ht hn => (h ha t ht hn).elim⟩
  unfold loadCa
  al
  · next b =>
    refine spec_call (getP7_spec lib raw hG) (P := []) (D := b :: owned c) (.refl _) ?_
    intro r hr
    cases r with
    | none =>
      dsimp only [Option.elim, List.nil_append]
      fr
      refine spec_pure (.refl _) (fails fun ha t ht _ => ?_)
      obtain ⟨_, e⟩ := hr.2 ha t ht
      simp at e
    | some x =>
      obtain ⟨bios, t⟩ := x
      dsimp only [Option.elim]
      split
      · next hl =>
        have ht0 : t = [] := List.eq_nil_of_length_eq_zero hl
        refine spec_call (freeAll_spec bios) (D := b :: owned c) (.refl _) ?_
        intro _ _
        dsimp only [List.nil_append]
        fr
        refine spec_pure (.refl _) (fails fun ha u hu hn => ?_)
        obtain ⟨_, e⟩ := hr.2 ha u hu
        exact hn ((Prod.mk.inj (Option.some.inj e)).2.symm.trans ht0)
      · next hl =>
        have ht : t ≠ [] := fun e => hl (by rw [e]; rfl)
        al
        · next p =>
          refine spec_call (freeAll_spec bios) (D := b :: p :: owned c) (by iperm) ?_
          intro _ _
          dsimp only [List.nil_append]
          fr
          refine spec_pure ?_ ⟨rfl, fun e => absurd rfl e, fun _ => ⟨p, t, rfl, ht, hr.1 _ _ rfl ht⟩,
            fun _ _ _ _ => rfl⟩
          unfold owned
          rw [hc]
          iperm
        · next hn =>
          refine spec_call (freeAll_spec bios) (D := b :: owned c) (.refl _) ?_
          intro _ _
          dsimp only [List.nil_append]
          fr
          exact spec_pure (.refl _) (fails fun ha => absurd ha hn)
  · next hn => exact spec_pure (.refl _) (fails fun ha => absurd ha hn)

theorem destroy_spec (c : Ctx) (h : c.proxy = true ∨ c.table = none) :
    Spec ok G (owned c) (destroy c) (fun _ => []) (fun _ => True) := by
  unfold destroy
  refine spec_free_opt (P' := owned { c with store := none }) ?_ ?_
  · unfold owned; iperm
  refine spec_free_opt (P' := owned { c with store := none, ca := none }) ?_ ?_
  · unfold owned; iperm
  refine spec_free_opt (P' := owned { c with store := none, ca := none, raw := none }) ?_ ?_
  · unfold owned; iperm
  refine spec_free_opt
    (P' := owned { c with store := none, ca := none, raw := none, reqs := none }) ?_ ?_
  · unfold owned; iperm
  by_cases hp : c.proxy = true
  · rw [if_pos hp]
    refine spec_free_opt (P' := [c.self]) ?_ ?_
    · unfold owned; iperm
    exact spec_last
  · rw [if_neg hp]
    have ht := h.resolve_left hp
    refine spec_perm (P' := [c.self]) ?_ spec_last
    unfold owned
    rw [ht]
    iperm


/-! ## The rest of the two functions -/

theorem initCoap_spec (lib : Lib) (c : Ctx) (hc : c.reqs = none) (hG : G ∨ AllOk ok) :
    Spec ok G (owned c) (initCoap lib c) (fun r => r.elim [] owned)
      (fun r => (∀ d, r = some d → d = { c with reqs := d.reqs, sessMax := d.sessMax } ∧
          (lib.coap = true → d.reqs ≠ none ∧ d.sessMax = 32)) ∧
        (AllOk ok → r ≠ none)) := by
  unfold initCoap
  split
  · next hco =>
    refine spec_pure (.refl _) ⟨fun d e => ⟨?_, fun h => by simp [h] at hco⟩, fun _ => by simp⟩
    rw [← Option.some.inj e]
  · al
    · next p =>
      refine spec_pure ?_ ⟨fun d e => ?_, fun _ => by simp⟩
      · show (p :: owned c).Perm (owned { c with reqs := some p, sessMax := 32 })
        unfold owned
        rw [hc]
        iperm
      · rw [← Option.some.inj e]
        exact ⟨rfl, fun _ => ⟨by simp, rfl⟩⟩
    · next hn =>
      have hg : G := hG.resolve_right hn
      refine spec_free (P' := (c.store.map (fun x => x.1)).toList ++
        (c.ca.map (fun x => x.1)).toList ++ (c.raw.map (fun x => x.1)).toList ++ c.table.toList ++
        c.reqs.toList) (.refl _) ?_
      exact spec_lose _ hg (.refl _) ⟨fun d e => by simp at e, fun ha => absurd ha hn⟩

/-- The context that comes out of the last part of `est_server_init`. -/
structure ServerDone (lib : Lib) (c : Ctx) (chain realm : List Nat) (d : Ctx) : Prop where
  certs : certsIn lib chain ≠ []
  store : ∃ st, d.store = some (st, certsIn lib chain, crlsIn lib chain)
  rest : d = { c with store := d.store, reqs := d.reqs, sessMax := d.sessMax,
                      realm := strcpyS c.realm 255 realm, authMode := 1, pop := true,
                      localCa := true }
  coap : lib.coap = true → d.reqs ≠ none ∧ d.sessMax = 32

theorem serverRest_spec (lib : Lib) (c : Ctx) (chain realm : List Nat)
    (h : Short lib (certsIn lib chain)) (hc : c.store = none) (hq : c.reqs = none)
    (hG : G ∨ AllOk ok ∧ certsIn lib chain ≠ []) :
    Spec ok G (owned c) (serverRest lib c chain realm) (fun r => r.elim [] owned)
      (fun r => (∀ d, r = some d → ServerDone lib c chain realm d) ∧
        (AllOk ok → certsIn lib chain ≠ [] → r ≠ none)) := by
  unfold serverRest
  refine spec_call (loadTrusted_spec lib c chain h hc) (D := []) (by rw [List.append_nil]) ?_
  rintro ⟨e, d⟩ ht
  dsimp only
  rw [List.append_nil]
  split
  · next he =>
    have hg : G := hG.resolve_right (fun x => he (ht.works x.1 x.2))
    refine spec_free (P' := (d.store.map (fun x => x.1)).toList ++
        (d.ca.map (fun x => x.1)).toList ++ (d.raw.map (fun x => x.1)).toList ++ d.table.toList ++
        d.reqs.toList) (.refl _) ?_
    exact spec_lose _ hg (.refl _) ⟨fun d e => by simp at e, fun ha hn => absurd (ht.works ha hn) he⟩
  · next he =>
    have he : e = .none := by simpa using he
    have hd : d = { c with store := d.store } := ht.rest
    obtain ⟨hne, st, hst⟩ := ht.good he
    have hq' : d.reqs = none := by rw [hd]; exact hq
    refine spec_post (initCoap_spec lib { d with
      realm := strcpyS d.realm 255 realm, authMode := 1, pop := true, localCa := true } hq'
      (hG.imp_right (·.1))) ?_
    intro r hr
    refine ⟨.refl _, fun f hf => ?_, fun ha _ => hr.2 ha⟩
    have hf' := (hr.1 f hf).1
    refine ⟨hne, ⟨st, ?_⟩, ?_, (hr.1 f hf).2⟩
    · rw [hf']; exact hst
    · rw [hf', hd]

/-- The context that comes out of the last part of `est_proxy_init`. -/
structure ProxyDone (lib : Lib) (ok : Nat → Bool) (c : Ctx) (chain realm : List Nat) (d : Ctx) :
    Prop where
  certs : certsIn lib chain ≠ []
  store : ∃ st, d.store = some (st, certsIn lib chain, crlsIn lib chain)
  raw : ∃ p, d.raw = some (p, chain)
  table : AllOk ok → d.table ≠ none
  rest : d = { c with store := d.store, raw := d.raw, table := d.table, reqs := d.reqs,
                      sessMax := d.sessMax, realm := strcpyS c.realm 255 realm, authMode := 1 }
  coap : lib.coap = true → d.reqs ≠ none ∧ d.sessMax = 32

theorem proxyRest_spec (lib : Lib) (c : Ctx) (chain realm : List Nat)
    (h : Short lib (certsIn lib chain)) (hp : c.proxy = true) (hc : c.store = none)
    (hw : c.raw = none) (hb : c.table = none) (hq : c.reqs = none) (hG : G ∨ AllOk ok) :
    Spec ok G (owned c) (proxyRest lib c chain realm) (fun r => r.elim [] owned)
      (fun r => (∀ d, r = some d → ProxyDone lib ok c chain realm d) ∧
        (AllOk ok → certsIn lib chain ≠ [] → r ≠ none)) := by
  unfold proxyRest
  refine spec_call (loadTrusted_spec lib c chain h hc) (D := []) (by rw [List.append_nil]) ?_
  rintro ⟨e, d⟩ ht
  dsimp only
  rw [List.append_nil]
  have hd : d = { c with store := d.store } := ht.rest
  have hdp : d.proxy = true := by rw [hd]; exact hp
  split
  · next he =>
    refine spec_call (destroy_spec d (.inl hdp)) (D := []) (by rw [List.append_nil]) ?_
    intro _ _
    exact spec_pure (.refl _) ⟨fun d e => by simp at e, fun ha hn => absurd (ht.works ha hn) he⟩
  · next he =>
    have he : e = .none := by simpa using he
    obtain ⟨hne, st, hst⟩ := ht.good he
    al
    · next p =>
      have fin : ∀ (t : Option Nat), (AllOk ok → t ≠ none) →
          Spec ok G (t.toList ++ p :: owned d)
            (initCoap lib { d with
              raw := some (p, chain), realm := strcpyS d.realm 255 realm, authMode := 1,
              table := t }) (fun r => r.elim [] owned)
            (fun r => (∀ d, r = some d → ProxyDone lib ok c chain realm d) ∧
              (AllOk ok → certsIn lib chain ≠ [] → r ≠ none)) := by
        intro t ht'
        refine spec_perm ?_ (spec_post (initCoap_spec lib _ ?_ hG) ?_)
        · unfold owned
          rw [hd, hw, hb]
          cases t <;> iperm
        · rw [hd]; exact hq
        · intro r hr
          refine ⟨.refl _, fun f hf => ?_, fun ha _ => hr.2 ha⟩
          have hf' := (hr.1 f hf).1
          refine ⟨hne, ⟨st, ?_⟩, ⟨p, ?_⟩, ?_, ?_, (hr.1 f hf).2⟩
          · rw [hf']; exact hst
          · rw [hf']
          · rw [hf']; exact ht'
          · rw [hf', hd]
      al
      · next t => exact fin (some t) (fun _ => by simp)
      · next hn => exact fin none (fun ha => absurd ha hn)
    · next hn =>
      refine spec_call (destroy_spec d (.inl hdp)) (D := []) (by rw [List.append_nil]) ?_
      intro _ _
      exact spec_pure (.refl _) ⟨fun d e => by simp at e, fun ha => absurd ha hn⟩

end Verif.Init
