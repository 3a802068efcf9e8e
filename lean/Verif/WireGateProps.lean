import Verif.WireGetProps

/-!
# C92: which requests get to the handlers, and what becomes of the others

The connection loop of the server, from the bytes on the wire to the call of the dispatcher.
-/
namespace Verif.Wire
open Verif.HttpConn (readRequest pullLoop mgRead getRequestLen IsHeader EndsBlank Allowed)
open Verif.ClientResp (decimal)

theorem serve_eq (s : Site) (sched : List HttpConn.Ev) (sock : List Nat) : serve s sched sock =
  (let rr := HttpConn.readRequest bufSize [] sock sched
  match rr.res with
  | .blocked => some ⟨[], []⟩
  | .ret r =>
    if r = 0 ∧ rr.buf.length = bufSize then some (refuse 413 [82, 101, 113, 117, 101, 115, 116, 32, 84, 111, 111, 32, 76, 97, 114, 103, 101] [])
    else if r ≤ 0 then some ⟨[], []⟩
    else
      match HttpHdr.parseRequest (rr.buf.take r.toNat) with
      | none => some (refuse 400 [66, 97, 100, 32, 82, 101, 113, 117, 101, 115, 116] ([67, 97, 110, 110, 111, 116, 32, 112, 97, 114, 115, 101, 32, 72, 84, 84, 80, 32, 114, 101, 113, 117, 101, 115, 116, 58, 32, 91] ++ rr.buf ++ [93]))
      | some q =>
        if !validUri q.uri then
          some (refuse 400 [66, 97, 100, 32, 82, 101, 113, 117, 101, 115, 116] ([67, 97, 110, 110, 111, 116, 32, 112, 97, 114, 115, 101, 32, 72, 84, 84, 80, 32, 114, 101, 113, 117, 101, 115, 116, 58, 32, 91] ++ rr.buf ++ [93]))
        else if !([49, 46, 48].isPrefixOf q.version || [49, 46, 49].isPrefixOf q.version) then
          some (refuse 505 [72, 84, 84, 80, 32, 118, 101, 114, 115, 105, 111, 110, 32, 110, 111, 116, 32, 115, 117, 112, 112, 111, 114, 116, 101, 100] [])
        else if contentLen q > HttpConn.maxContentLen then
          some (refuse 413 [67, 111, 110, 116, 101, 110, 116, 45, 76, 101, 110, 103, 116, 104, 32, 116, 111, 111, 32, 108, 97, 114, 103, 101] [])
        else if contentLen q < 0 then
          some (refuse 400 [66, 97, 100, 32, 82, 101, 113, 117, 101, 115, 116] [67, 111, 110, 116, 101, 110, 116, 45, 76, 101, 110, 103, 116, 104, 32, 105, 115, 32, 110, 101, 103, 97, 116, 105, 118, 101])
        else
          let m := HttpConn.mgRead ⟨rr.buf, r.toNat, contentLen q, 0⟩ (contentLen q).toNat rr.sock rr.evs
          if m.fin = .blocked then some ⟨[], []⟩
          else if m.bytes.length < (contentLen q).toNat then none
          else handle s q m.bytes) := rfl

/-- A refusal: a response with this status whose announced length is that of its body, which
announces the end of the connection; no callback of the application was called. -/
def Refused (st : Nat) (sv : Served) : Prop :=
  sv.evs = [] ∧ ∃ reason body, sv.text = [72, 84, 84, 80, 47, 49, 46, 49, 32] ++ decimal st ++ [32] ++ reason ++
    [13, 10, 67, 111, 110, 116, 101, 110, 116, 45, 76, 101, 110, 103, 116, 104, 58, 32] ++ decimal body.length ++ [13, 10, 67, 111, 110, 110, 101, 99, 116, 105, 111, 110, 58, 32, 99, 108, 111, 115, 101, 13, 10, 13, 10] ++ body

theorem refuse_refused (st : Nat) (reason text : List Nat) : Refused st (refuse st reason text) :=
  ⟨rfl, reason, _, rfl⟩

/-- The paths the server takes. -/
def PathOk (u : List Nat) : Prop := u.head? = some 47 ∨ u = [42]

instance (u : List Nat) : Decidable (PathOk u) := by unfold PathOk; infer_instance

theorem validUri_iff (u : List Nat) : validUri u = true ↔ PathOk u := by
  simp [validUri, PathOk]

def VersionOk (v : List Nat) : Prop := [49, 46, 48] <+: v ∨ [49, 46, 49] <+: v

instance (v : List Nat) : Decidable (VersionOk v) := by unfold VersionOk; infer_instance

theorem versionOk_iff (v : List Nat) :
    ([49, 46, 48].isPrefixOf v || [49, 46, 49].isPrefixOf v) = true ↔ VersionOk v := by
  simp only [Bool.or_eq_true, List.isPrefixOf_iff_prefix, VersionOk]

/-- C92: a request has effects only if its bytes are a complete header of allowed characters that
fits the buffer and parses to a request for a path, in HTTP 1.0 or 1.1, with a content length
between 0 and 8192, followed by just as many bytes; and then the effects are those of the
dispatcher for that header and those bytes. -/
theorem C92_handled (s : Site) (sched : List HttpConn.Ev) (sock : List Nat) (sv : Served)
    (h : serve s sched sock = some sv) (he : sv.evs ≠ []) :
    ∃ hd body rest q, sock = hd ++ (body ++ rest) ∧ IsHeader hd ∧ hd.length ≤ 16384 ∧
      HttpHdr.parseRequest hd = some q ∧ PathOk q.uri ∧ VersionOk q.version ∧
      contentLen q = body.length ∧ body.length ≤ 8192 ∧ handle s q body = some sv := by
  rw [serve_eq] at h
  obtain ⟨⟨t, h1, h2⟩, h3, h4, _⟩ := HttpConn.readRequest_spec bufSize sched [] sock
  simp only at h
  generalize readRequest bufSize [] sock sched = rr at h h1 h2 h3 h4
  cases hr : rr.res with
  | blocked =>
    simp only [hr, Option.some.injEq] at h
    subst h
    exact absurd rfl he
  | ret r =>
    simp only [hr] at h
    by_cases hc1 : r = 0 ∧ rr.buf.length = bufSize
    · rw [if_pos hc1] at h
      simp only [Option.some.injEq] at h
      subst h
      exact absurd rfl he
    rw [if_neg hc1] at h
    by_cases hc2 : r ≤ 0
    · rw [if_pos hc2] at h
      simp only [Option.some.injEq] at h
      subst h
      exact absurd rfl he
    rw [if_neg hc2] at h
    have hg := h4 r hr (by omega)
    obtain ⟨hd, rest, e1, e2, e3⟩ := (HttpConn.C12_positive_iff_header rr.buf r.toNat).1
      ⟨by rw [← hg]; omega, by omega⟩
    have htk : rr.buf.take r.toNat = hd := by rw [e1, ← e3, List.take_left]
    rw [htk] at h
    cases hq : HttpHdr.parseRequest hd with
    | none =>
      simp only [hq, Option.some.injEq] at h
      subst h
      exact absurd rfl he
    | some q =>
      simp only [hq] at h
      by_cases hv : validUri q.uri = true
      case neg =>
        rw [if_pos (by simpa using hv), Option.some.injEq] at h
        subst h
        exact absurd rfl he
      rw [if_neg (by simp [hv])] at h
      by_cases hx : ([49, 46, 48].isPrefixOf q.version || [49, 46, 49].isPrefixOf q.version) = true
      case neg =>
        rw [if_pos (by rw [Bool.eq_false_iff.2 hx]; rfl), Option.some.injEq] at h
        subst h
        exact absurd rfl he
      rw [if_neg (by rw [hx]; simp)] at h
      by_cases hm : contentLen q > HttpConn.maxContentLen
      · rw [if_pos hm, Option.some.injEq] at h
        subst h
        exact absurd rfl he
      rw [if_neg hm] at h
      by_cases hn : contentLen q < 0
      · rw [if_pos hn, Option.some.injEq] at h
        subst h
        exact absurd rfl he
      rw [if_neg hn] at h
      obtain ⟨m1, m2, m3, m4, m5, _⟩ := HttpConn.mgRead_spec
        ⟨rr.buf, r.toNat, contentLen q, 0⟩ (contentLen q).toNat rr.sock rr.evs
      generalize mgRead ⟨rr.buf, r.toNat, contentLen q, 0⟩ (contentLen q).toNat rr.sock rr.evs = m
        at h m1 m2 m3 m4 m5
      by_cases hb : m.fin = .blocked
      · rw [if_pos hb, Option.some.injEq] at h
        subst h
        exact absurd rfl he
      rw [if_neg hb] at h
      by_cases hl : m.bytes.length < (contentLen q).toNat
      · rw [if_pos hl] at h
        simp at h
      rw [if_neg hl] at h
      unfold HttpConn.maxContentLen at hm
      refine ⟨hd, m.bytes, HttpConn.remaining m.conn m.sock, q, ?_, e2, ?_, hq, (validUri_iff _).1 hv,
        (versionOk_iff _).1 hx, by omega, by omega, h⟩
      · rw [m1]
        unfold HttpConn.remaining
        simp only [Nat.add_zero]
        rw [← e3, e1, List.drop_left, h2, ← List.append_assoc, ← e1, h1, List.nil_append]
      · have := h3 (by simp)
        have e := congrArg List.length e1
        simp only [List.length_append] at e
        unfold bufSize at this
        omega

/-! ### Example values -/

def exGetText : List Nat := [71, 69, 84, 32, 47, 46, 119, 101, 108, 108, 45, 107, 110, 111, 119, 110, 47, 101, 115, 116, 47, 99, 97, 99, 101, 114, 116, 115, 32, 72, 84, 84, 80, 47, 49, 46, 49, 13, 10, 13, 10]
def exPostText (v cl : List Nat) : List Nat :=
  [80, 79, 83, 84, 32, 47, 46, 119, 101, 108, 108, 45, 107, 110, 111, 119, 110, 47, 101, 115, 116, 47, 115, 105, 109, 112, 108, 101, 101, 110, 114, 111, 108, 108, 32, 72, 84, 84, 80, 47] ++ v ++ [13, 10, 67, 111, 110, 116, 101, 110, 116, 45, 76, 101, 110, 103, 116, 104, 58, 32] ++ cl ++ [13, 10, 13, 10]

theorem header_of (t : List Nat) (h : getRequestLen t = t.length) (hne : t ≠ []) : IsHeader t := by
  obtain ⟨hd, rest, h1, h2, h3⟩ := (HttpConn.C12_positive_iff_header t t.length).1
    ⟨h, List.length_pos_iff.2 hne⟩
  have : rest = [] := by
    have := congrArg List.length h1
    simp only [List.length_append] at this
    exact List.eq_nil_of_length_eq_zero (by omega)
  rw [h1, this, List.append_nil]
  exact h2

example : ((serve exSite exSched exGetText).map fun sv => sv.evs.length) = some 2 := by decide +kernel

/-- What the server does once the header was read. -/
theorem serve_header (s : Site) (sched : List HttpConn.Ev) (hd rest : List Nat)
    (hlen : getRequestLen (hd ++ rest) = hd.length) (hne : hd ≠ [])
    (hl : (hd ++ rest).length ≤ bufSize) (ha : Arrives sched (hd ++ rest).length) :
    ∃ buf, (HttpHdr.parseRequest hd = none → serve s sched (hd ++ rest) =
        some (refuse 400 [66, 97, 100, 32, 82, 101, 113, 117, 101, 115, 116] ([67, 97, 110, 110, 111, 116, 32, 112, 97, 114, 115, 101, 32, 72, 84, 84, 80, 32, 114, 101, 113, 117, 101, 115, 116, 58, 32, 91] ++ buf ++ [93]))) ∧
      ∀ q, HttpHdr.parseRequest hd = some q →
        (validUri q.uri = false → serve s sched (hd ++ rest) =
          some (refuse 400 [66, 97, 100, 32, 82, 101, 113, 117, 101, 115, 116] ([67, 97, 110, 110, 111, 116, 32, 112, 97, 114, 115, 101, 32, 72, 84, 84, 80, 32, 114, 101, 113, 117, 101, 115, 116, 58, 32, 91] ++ buf ++ [93]))) ∧
        (validUri q.uri = true →
          ([49, 46, 48].isPrefixOf q.version || [49, 46, 49].isPrefixOf q.version) = false →
          serve s sched (hd ++ rest) = some (refuse 505 [72, 84, 84, 80, 32, 118, 101, 114, 115, 105, 111, 110, 32, 110, 111, 116, 32, 115, 117, 112, 112, 111, 114, 116, 101, 100] [])) ∧
        (validUri q.uri = true →
          ([49, 46, 48].isPrefixOf q.version || [49, 46, 49].isPrefixOf q.version) = true →
          (contentLen q > 8192 →
            serve s sched (hd ++ rest) = some (refuse 413 [67, 111, 110, 116, 101, 110, 116, 45, 76, 101, 110, 103, 116, 104, 32, 116, 111, 111, 32, 108, 97, 114, 103, 101] [])) ∧
          (contentLen q < 0 → serve s sched (hd ++ rest) =
            some (refuse 400 [66, 97, 100, 32, 82, 101, 113, 117, 101, 115, 116] [67, 111, 110, 116, 101, 110, 116, 45, 76, 101, 110, 103, 116, 104, 32, 105, 115, 32, 110, 101, 103, 97, 116, 105, 118, 101]))) := by
  have hpos : 0 < hd.length := List.length_pos_iff.2 hne
  obtain ⟨h1, h2, h3, h4⟩ := readRequest_arrives bufSize sched [] (hd ++ rest) hd.length
    (by simpa using hlen) hpos (by simpa using hl) ha
  rw [List.nil_append] at h2
  have htake : (readRequest bufSize [] (hd ++ rest) sched).buf.take hd.length = hd := by
    have := congrArg (List.take hd.length) h2
    rw [List.take_append_of_le_length h3, List.take_left] at this
    exact this
  refine ⟨(readRequest bufSize [] (hd ++ rest) sched).buf, ?_, ?_⟩
  · intro hq
    rw [serve_eq]
    simp only [h1]
    rw [if_neg (by omega), if_neg (by omega), Int.toNat_natCast, htake, hq]
  · intro q hq
    refine ⟨fun g => ?_, fun g1 g2 => ?_, fun g1 g2 => ⟨fun g3 => ?_, fun g3 => ?_⟩⟩
    all_goals
      rw [serve_eq]
      simp only [h1]
      rw [if_neg (by omega), if_neg (by omega), Int.toNat_natCast, htake, hq]
      simp only
    · rw [if_pos (by simp [g])]
    · rw [if_neg (by simp [g1]), if_pos (by simp only [g2, Bool.not_false])]
    · rw [if_neg (by simp [g1]), if_neg (by simp only [g2, Bool.not_true, Bool.false_eq_true, not_false_eq_true]),
        if_pos (by unfold HttpConn.maxContentLen; omega)]
    · rw [if_neg (by simp [g1]), if_neg (by simp only [g2, Bool.not_true, Bool.false_eq_true, not_false_eq_true]),
        if_neg (by unfold HttpConn.maxContentLen; omega), if_pos g3]

/-- C92: a complete header that does not parse, or names no path, is answered with 400; one of
another HTTP version with 505; one that announces more than 8192 bytes with 413, and one that
announces a negative number of bytes with 400. -/
theorem C92_refused (s : Site) (sched : List HttpConn.Ev) (hd rest : List Nat) (hh : IsHeader hd)
    (hl : (hd ++ rest).length ≤ 16384) (ha : Arrives sched (hd ++ rest).length) :
    (HttpHdr.parseRequest hd = none →
      ∃ sv, serve s sched (hd ++ rest) = some sv ∧ Refused 400 sv) ∧
    ∀ q, HttpHdr.parseRequest hd = some q →
      (¬ PathOk q.uri → ∃ sv, serve s sched (hd ++ rest) = some sv ∧ Refused 400 sv) ∧
      (PathOk q.uri → ¬ VersionOk q.version →
        ∃ sv, serve s sched (hd ++ rest) = some sv ∧ Refused 505 sv) ∧
      (PathOk q.uri → VersionOk q.version → contentLen q > 8192 →
        ∃ sv, serve s sched (hd ++ rest) = some sv ∧ Refused 413 sv) ∧
      (PathOk q.uri → VersionOk q.version → contentLen q < 0 →
        ∃ sv, serve s sched (hd ++ rest) = some sv ∧ Refused 400 sv) := by
  have hp := (HttpConn.C12_positive_iff_header (hd ++ rest) hd.length).2 ⟨hd, rest, rfl, hh, rfl⟩
  obtain ⟨buf, h1, h2⟩ := serve_header s sched hd rest hp.1 (List.length_pos_iff.1 hp.2) hl ha
  refine ⟨fun h => ⟨_, h1 h, refuse_refused _ _ _⟩, fun q hq => ?_⟩
  obtain ⟨g1, g2, g3⟩ := h2 q hq
  refine ⟨fun k => ?_, fun k1 k2 => ?_, fun k1 k2 k3 => ?_, fun k1 k2 k3 => ?_⟩
  · exact ⟨_, g1 (by rw [← Bool.not_eq_true, validUri_iff]; exact k), refuse_refused _ _ _⟩
  · exact ⟨_, g2 ((validUri_iff _).2 k1) (by rw [← Bool.not_eq_true, versionOk_iff]; exact k2),
      refuse_refused _ _ _⟩
  · exact ⟨_, (g3 ((validUri_iff _).2 k1) ((versionOk_iff _).2 k2)).1 k3, refuse_refused _ _ _⟩
  · exact ⟨_, (g3 ((validUri_iff _).2 k1) ((versionOk_iff _).2 k2)).2 k3, refuse_refused _ _ _⟩

example : (∃ sv, serve exSite exSched (exPostText [50, 46, 48] [51]) = some sv ∧ Refused 505 sv) ∧
    (∃ sv, serve exSite exSched (exPostText [49, 46, 49] [56, 49, 57, 51]) = some sv ∧ Refused 413 sv) ∧
    (∃ sv, serve exSite exSched (exPostText [49, 46, 49] [45, 49]) = some sv ∧ Refused 400 sv) := by
  refine ⟨?_, ?_, ?_⟩
  · obtain ⟨q, hq⟩ : ∃ q, HttpHdr.parseRequest (exPostText [50, 46, 48] [51]) = some q ∧ PathOk q.uri ∧
        ¬ VersionOk q.version := ⟨_, rfl, by decide, by decide⟩
    have := ((C92_refused exSite exSched (exPostText [50, 46, 48] [51]) [] (header_of _ (by decide) (by decide))
      (by decide) (exArrives _ (by decide))).2 q hq.1).2.1 hq.2.1 hq.2.2
    simpa using this
  · obtain ⟨q, hq⟩ : ∃ q, HttpHdr.parseRequest (exPostText [49, 46, 49] [56, 49, 57, 51]) = some q ∧ PathOk q.uri ∧
        VersionOk q.version ∧ contentLen q > 8192 := ⟨_, rfl, by decide, by decide, by decide⟩
    have := ((C92_refused exSite exSched (exPostText [49, 46, 49] [56, 49, 57, 51]) [] (header_of _ (by decide) (by decide))
      (by decide) (exArrives _ (by decide))).2 q hq.1).2.2.1 hq.2.1 hq.2.2.1 hq.2.2.2
    simpa using this
  · obtain ⟨q, hq⟩ : ∃ q, HttpHdr.parseRequest (exPostText [49, 46, 49] [45, 49]) = some q ∧ PathOk q.uri ∧
        VersionOk q.version ∧ contentLen q < 0 := ⟨_, rfl, by decide, by decide, by decide⟩
    have := ((C92_refused exSite exSched (exPostText [49, 46, 49] [45, 49]) [] (header_of _ (by decide) (by decide))
      (by decide) (exArrives _ (by decide))).2 q hq.1).2.2.2 hq.2.1 hq.2.2.1 hq.2.2.2
    simpa using this

theorem readRequest_full (n : Nat) (evs : List HttpConn.Ev) : ∀ (buf sock : List Nat),
    (∀ k, k ≤ n → getRequestLen ((buf ++ sock).take k) = 0) → buf.length ≤ n →
    n ≤ buf.length + sock.length → Arrives evs (n - buf.length) →
    (readRequest n buf sock evs).res = .ret 0 ∧ (readRequest n buf sock evs).buf.length = n := by
  induction evs with
  | nil =>
    intro buf sock h hb hl ⟨_, ha⟩
    simp [total] at ha
    have h0 : getRequestLen buf = 0 := by
      have := h buf.length hb
      rwa [List.take_left] at this
    unfold readRequest
    rw [if_neg (by omega)]
    exact ⟨by rw [h0], by simp; omega⟩
  | cons e es ih =>
    intro buf sock h hb hl ⟨he, ha⟩
    have h0 : getRequestLen buf = 0 := by
      have := h buf.length hb
      rwa [List.take_left] at this
    by_cases hn : buf.length < n
    · cases e with
      | err => simp at he
      | avail k =>
        unfold readRequest
        rw [if_pos ⟨hn, h0⟩]
        simp only
        refine ih _ _ ?_ ?_ ?_ ⟨by simp at he; exact he, ?_⟩
        · intro j hj
          rw [List.append_assoc, List.take_append_drop]
          exact h j hj
        · simp; omega
        · simp; omega
        · simp [total] at ha ⊢; omega
    · unfold readRequest
      rw [if_neg (by omega)]
      exact ⟨by rw [h0], by simp; omega⟩

/-- C92: a request whose first 16384 bytes are allowed characters without an empty line is
answered with 413. -/
theorem C92_header_too_large (s : Site) (sched : List HttpConn.Ev) (sock : List Nat)
    (hl : 16384 ≤ sock.length) (hc : ∀ c ∈ sock.take 16384, Allowed c)
    (hb : ∀ k, k ≤ 16384 → ¬ EndsBlank (sock.take k)) (ha : Arrives sched 16384) :
    ∃ sv, serve s sched sock = some sv ∧ Refused 413 sv := by
  have hz : ∀ k, k ≤ bufSize → getRequestLen (([] ++ sock).take k) = 0 := by
    intro k hk
    rw [List.nil_append]
    unfold bufSize at hk
    rcases HttpConn.reqLenFrom_values 0 (sock.take k) with h | h | h
    · obtain ⟨p, c, d, t, h1, h2, _⟩ := HttpConn.bad_of_neg 0 _ h
      exfalso
      apply h2
      apply hc
      have : c ∈ sock.take k := by rw [h1]; simp
      exact (List.take_subset_take_left sock hk) this
    · exact h
    · obtain ⟨q, r, h1, h2, _⟩ := HttpConn.isHeader_of_pos 0 _ _ rfl h
      exfalso
      have : q = sock.take (min q.length k) := by
        have e := congrArg (List.take q.length) h1
        rw [List.take_left, List.take_take] at e
        exact e.symm
      exact hb (min q.length k) (by omega) (this ▸ h2.ends)
  obtain ⟨h1, h2⟩ := readRequest_full bufSize sched [] sock hz (by simp) (by simp [bufSize]; exact hl)
    (by simpa [bufSize] using ha)
  refine ⟨refuse 413 [82, 101, 113, 117, 101, 115, 116, 32, 84, 111, 111, 32, 76, 97, 114, 103, 101] [], ?_, refuse_refused _ _ _⟩
  rw [serve_eq]
  simp only [h1]
  rw [if_pos ⟨trivial, h2⟩]

example : ∃ sv, serve exSite [.avail 20000] (List.replicate 16384 65) = some sv ∧ Refused 413 sv := by
  refine C92_header_too_large exSite _ _ (by rw [List.length_replicate]; exact Nat.le_refl _) ?_ ?_
    ⟨by simp, by simp [total]⟩
  · intro c hc
    have := List.eq_of_mem_replicate (List.mem_of_mem_take hc)
    subst this
    right; right; left; omega
  · rintro k _ ⟨q, h | h⟩
    all_goals
      have h10 : 10 ∈ (List.replicate 16384 65).take k := by rw [h]; simp
      have := List.eq_of_mem_replicate (List.mem_of_mem_take h10)
      omega

/-- C92: if the client leaves, or is too slow, before the header is complete, nothing is written
and nothing happens. -/
theorem C92_no_header (s : Site) (sched : List HttpConn.Ev) (sock : List Nat)
    (hb : ∀ hd rest, sock = hd ++ rest → ¬ IsHeader hd) (hl : sock.length < 16384) :
    serve s sched sock = some ⟨[], []⟩ := by
  obtain ⟨⟨t, h1, h2⟩, h3, h4, _⟩ := HttpConn.readRequest_spec bufSize sched [] sock
  rw [serve_eq]
  simp only at h1 h2 h3 h4 ⊢
  generalize readRequest bufSize [] sock sched = rr at h1 h2 h3 h4 ⊢
  rw [List.nil_append] at h1
  cases hr : rr.res with
  | blocked => rfl
  | ret r =>
    simp only
    have hle : rr.buf.length < bufSize := by
      have := congrArg List.length h2
      rw [h1]; unfold bufSize; simp at this; omega
    rw [if_neg (by omega)]
    by_cases hpos : 0 < r
    · obtain ⟨hd, rest, e1, e2, e3⟩ := HttpConn.isHeader_of_pos 0 rr.buf r (h4 r hr hpos).symm hpos
      exact absurd e2 (hb hd (rest ++ rr.sock) (by rw [← List.append_assoc, ← e1, h1, ← h2]))
    · rw [if_pos (by omega)]

example : serve exSite [.avail 10, .err] [71, 69, 84, 32, 47, 46, 119, 101, 108, 108, 45, 107, 110, 111, 119, 110, 47, 101] = some ⟨[], []⟩ := by
  refine C92_no_header exSite _ _ ?_ (by decide)
  rintro hd rest h ⟨⟨q, hq | hq⟩, _, _⟩
  all_goals
    have h10 : 10 ∈ [71, 69, 84, 32, 47, 46, 119, 101, 108, 108, 45, 107, 110, 111, 119, 110, 47, 101] := by rw [h, hq]; simp
    revert h10
    decide

theorem readRequest_append (n : Nat) (pre tl : List HttpConn.Ev) : ∀ (buf sock : List Nat),
    (readRequest n buf sock pre).res ≠ .blocked →
    readRequest n buf sock (pre ++ tl) =
      { readRequest n buf sock pre with
        evs := (readRequest n buf sock pre).evs ++ tl } := by
  induction pre with
  | nil =>
    intro buf sock h
    have hc : ¬ (buf.length < n ∧ getRequestLen buf = 0) := by
      intro hc
      unfold readRequest at h
      rw [if_pos hc] at h
      exact h rfl
    have h2 : readRequest n buf sock [] = ⟨.ret (getRequestLen buf), buf, sock, []⟩ := by
      unfold readRequest
      rw [if_neg hc]
    rw [h2]
    cases tl with
    | nil => rw [List.append_nil, h2]
    | cons e tl =>
      simp only [List.nil_append]
      unfold readRequest
      rw [if_neg hc]
  | cons e es ih =>
    intro buf sock h
    by_cases hc : buf.length < n ∧ getRequestLen buf = 0
    · cases e with
      | err =>
        rw [List.cons_append]
        unfold readRequest
        rw [if_pos hc, if_pos hc]
      | avail k =>
        rw [List.cons_append]
        unfold readRequest at h ⊢
        rw [if_pos hc] at h ⊢
        rw [if_pos hc]
        exact ih _ _ h
    · rw [List.cons_append]
      unfold readRequest
      rw [if_neg hc, if_neg hc]
      rfl

theorem pullLoop_cut (pre post : List HttpConn.Ev) : ∀ (len : Nat) (sock : List Nat),
    sock.length < len → Arrives pre sock.length →
    (pullLoop len sock (pre ++ .err :: post)).1 = sock ∧
    (pullLoop len sock (pre ++ .err :: post)).2.1 = .err := by
  induction pre with
  | nil =>
    intro len sock h ⟨_, ha⟩
    simp [total] at ha
    subst ha
    simp only [List.nil_append]
    unfold pullLoop
    rw [if_neg (by simp at h; omega)]
    exact ⟨rfl, rfl⟩
  | cons e es ih =>
    intro len sock h ⟨he, ha⟩
    cases e with
    | err => simp at he
    | avail k =>
      simp only [List.cons_append]
      unfold pullLoop
      rw [if_neg (by omega)]
      simp only
      obtain ⟨h1, h2⟩ := ih (len - (sock.take (min k len)).length) (sock.drop (min k len))
        (by simp; omega) ⟨by simp at he; exact he, by simp [total] at ha ⊢; omega⟩
      exact ⟨by rw [h1, List.take_append_drop], h2⟩

/-- C92 is false of a cut body: a request whose body is cut off by the end of the connection, or does not come in time,
is handled although its bytes were never read: the behaviour is undefined. -/
theorem C92_incomplete_body_false (s : Site) (pre post : List HttpConn.Ev) (hd part : List Nat)
    (q : HttpHdr.Req) (hh : IsHeader hd) (hl : (hd ++ part).length ≤ 16384)
    (ha : Arrives pre (hd ++ part).length) (hq : HttpHdr.parseRequest hd = some q)
    (hp : PathOk q.uri) (hv : VersionOk q.version) (hc : contentLen q ≤ 8192)
    (hcut : (part.length : Int) < contentLen q) :
    serve s (pre ++ .err :: post) (hd ++ part) = none := by
  have hlen := (HttpConn.C12_positive_iff_header (hd ++ part) hd.length).2 ⟨hd, part, rfl, hh, rfl⟩
  obtain ⟨h1, h2, h3, h4⟩ := readRequest_arrives bufSize pre [] (hd ++ part) hd.length
    (by simpa using hlen.1) hlen.2 (by unfold bufSize; simpa using hl) ha
  have happ := readRequest_append bufSize pre (.err :: post) [] (hd ++ part) (by rw [h1]; simp)
  rw [serve_eq]
  simp only [happ, h1]
  generalize readRequest bufSize [] (hd ++ part) pre = rr at h2 h3 h4
  rw [List.nil_append] at h2
  have htake : rr.buf.take hd.length = hd := by
    have := congrArg (List.take hd.length) h2
    rw [List.take_append_of_le_length h3, List.take_left] at this
    exact this
  have hdrop : rr.buf.drop hd.length ++ rr.sock = part := by
    have := congrArg (List.drop hd.length) h2
    rw [List.drop_append_of_le_length h3, List.drop_left] at this
    exact this
  have hpos := hlen.2
  rw [if_neg (by omega), if_neg (by omega), Int.toNat_natCast, htake, hq]
  simp only
  rw [if_neg (by simp [(validUri_iff _).2 hp]),
    if_neg (by simp only [(versionOk_iff _).2 hv, Bool.not_true, Bool.false_eq_true, not_false_eq_true]),
    if_neg (by unfold HttpConn.maxContentLen; omega), if_neg (by omega)]
  obtain ⟨cl, hcl⟩ : ∃ cl : Nat, contentLen q = cl := ⟨(contentLen q).toNat, by omega⟩
  rw [hcl] at hcut ⊢
  rw [Int.toNat_natCast]
  have hsl := congrArg List.length hdrop
  simp only [List.length_append] at hsl
  have hbuf : (rr.buf.drop hd.length).take cl = rr.buf.drop hd.length :=
    List.take_of_length_le (by omega)
  obtain ⟨p1, p2⟩ := pullLoop_cut rr.evs post (cl - (rr.buf.drop hd.length).length) rr.sock
    (by omega) h4
  have hm : (mgRead ⟨rr.buf, hd.length, cl, 0⟩ cl rr.sock (rr.evs ++ .err :: post)).fin = .err ∧
      (mgRead ⟨rr.buf, hd.length, cl, 0⟩ cl rr.sock (rr.evs ++ .err :: post)).bytes = part := by
    unfold mgRead
    simp only
    rw [if_pos (by omega)]
    simp only [Nat.add_zero]
    rw [if_neg (by omega), hbuf]
    exact ⟨p2, by rw [p1, hdrop]⟩
  rw [if_neg (by rw [hm.1]; decide), hm.2, if_pos (by omega)]

example : serve exSite [.avail 200, .err] (exPostText [49, 46, 49] [51, 48] ++ [1, 2]) = none := by
  obtain ⟨q, h1, h2, h3, h4, h5⟩ : ∃ q, HttpHdr.parseRequest (exPostText [49, 46, 49] [51, 48]) = some q ∧
      PathOk q.uri ∧ VersionOk q.version ∧ contentLen q ≤ 8192 ∧
      (([1, 2] : List Nat).length : Int) < contentLen q :=
    ⟨_, rfl, by decide, by decide, by decide, by decide⟩
  exact C92_incomplete_body_false exSite [.avail 200] [] _ [1, 2] q (header_of _ (by decide) (by decide))
    (by decide) ⟨by simp, by decide⟩ h1 h2 h3 h4 h5

/-- C92: the client of a request with undefined behaviour is taken to get no answer. -/
theorem C92_no_answer (s : Site) (sched : List HttpConn.Ev) (b : List (Option Nat))
    (h : serve s sched (b.map fun (x : Option Nat) => x.getD 0) = none) :
    reply s sched (.sent b) = .readFailed := by
  simp only [reply, h]

/-- C89: a challenge is made for the mode the server is configured for. -/
theorem C89_modes : toMode .basic = .basic ∧ toMode .digest = .digest ∧ toMode .token = .token ∧
    toMode .none = .none ∧ toMode .fail = .fail := ⟨rfl, rfl, rfl, rfl, rfl⟩

end Verif.Wire
