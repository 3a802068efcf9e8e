import Verif.SampleCaLemmas

/-!
# C127: what the sample certification authority gives out

The policy is specified without its loop: which entries of the request a line of the policy
lets through.
-/

namespace Verif.SampleCa

/-! ### The content of a certificate -/

/-- A line of the policy accepts a request: an entry that is asked for is there, and an entry that
has to be the same is one of the authority. -/
def Accepts (ca name : List Entry) (l : Line) : Prop :=
  ∃ nid, l.nid = some nid ∧ match l.rule with
    | .optional => True
    | .supplied => ∃ x ∈ name, x.nid = nid
    | .equal => (∃ x ∈ name, x.nid = nid) ∧ ∀ x ∈ name, x.nid = nid → x ∈ ca
    | .unknown => False

/-- The entries of the request that a line lets through. -/
def lets (name : List Entry) (l : Line) : List Entry :=
  name.filter fun x => decide (l.nid = some x.nid)

theorem matching_some {ca : List Entry} {nid : Nat} {t c : Entry} (hn : t.nid = nid)
    (h : matching ca nid t = some c) : c = t ∧ t ∈ ca := by
  induction ca with
  | nil => cases h
  | cons x xs ih =>
    unfold matching at h
    split at h
    · rename_i hx
      have hxc := Option.some.inj h
      have : x = t := by
        cases x
        cases t
        simp at hx hn ⊢
        exact ⟨by rw [hx.1, hn], hx.2⟩
      exact ⟨by rw [← hxc, this], by simp [this]⟩
    · have := ih h
      exact ⟨this.1, by simp [this.2]⟩

theorem matching_of_mem {ca : List Entry} {nid : Nat} {t : Entry} (hn : t.nid = nid)
    (h : t ∈ ca) : matching ca nid t = some t := by
  induction ca with
  | nil => cases h
  | cons x xs ih =>
    unfold matching
    split
    · rename_i hx
      obtain ⟨a, b, d⟩ := x
      obtain ⟨a', b', d'⟩ := t
      simp at hx hn ⊢
      exact ⟨by rw [hx.1, hn], hx.2⟩
    · rename_i hx
      rcases List.mem_cons.mp h with rfl | h
      · exact absurd ⟨hn, rfl, rfl⟩ hx
      · exact ih h

theorem policyLoop_iff (cf : Conf) (nid : Nat) (rule : Rule) :
    ∀ (name : List Entry) (first : Bool) (s r : List Entry),
      policyLoop cf nid rule first name s = some r ↔
        r = s ++ name.filter (fun x => decide (some nid = some x.nid)) ∧
        ((first = true ∧ rule ≠ .optional → ∃ x ∈ name, x.nid = nid) ∧
         (rule = .equal → ∀ x ∈ name, x.nid = nid → x ∈ cf.caName) ∧
         (rule = .unknown → first = false ∧ ∀ x ∈ name, x.nid ≠ nid))
  | [], first, s, r => by
    unfold policyLoop
    cases first <;> cases rule <;> simp [eq_comm]
  | t :: ts, first, s, r => by
    unfold policyLoop
    by_cases hn : t.nid = nid
    · have hf : (t :: ts).filter (fun x => decide (some nid = some x.nid)) =
          t :: ts.filter (fun x => decide (some nid = some x.nid)) := by
        rw [List.filter_cons, if_pos (by simp [hn])]
      rw [if_pos hn, hf]
      cases rule with
      | optional =>
        dsimp only
        rw [policyLoop_iff cf nid .optional ts false]
        simp
      | supplied =>
        dsimp only
        rw [policyLoop_iff cf nid .supplied ts false]
        simp [hn]
      | unknown =>
        dsimp only
        simp [hn]
      | equal =>
        dsimp only
        by_cases hm : t ∈ cf.caName
        · rw [matching_of_mem hn hm]
          dsimp only
          rw [policyLoop_iff cf nid .equal ts false]
          simp [hn, hm]
        · cases hx : matching cf.caName nid t with
          | some c => exact absurd (matching_some hn hx).2 hm
          | none => simp [hn, hm]
    · have hf : (t :: ts).filter (fun x => decide (some nid = some x.nid)) =
          ts.filter (fun x => decide (some nid = some x.nid)) := by
        rw [List.filter_cons, if_neg (by simp; exact fun h => hn h.symm)]
      rw [if_neg hn, hf, policyLoop_iff cf nid rule ts first]
      simp [hn]

theorem policySubject_iff (cf : Conf) (name : List Entry) :
    ∀ (ls : List Line) (s r : List Entry), policySubject cf name ls s = some r ↔
      r = s ++ ls.flatMap (lets name) ∧ ∀ l ∈ ls, Accepts cf.caName name l
  | [], s, r => by simp [policySubject, eq_comm]
  | ⟨none, rule⟩ :: ls, s, r => by
    simp [policySubject, Accepts]
  | ⟨some nid, rule⟩ :: ls, s, r => by
    unfold policySubject
    dsimp only
    have key := policyLoop_iff cf nid rule name true s
    have hacc : ((true = true ∧ rule ≠ .optional → ∃ x ∈ name, x.nid = nid) ∧
         (rule = .equal → ∀ x ∈ name, x.nid = nid → x ∈ cf.caName) ∧
         (rule = .unknown → true = false ∧ ∀ x ∈ name, x.nid ≠ nid)) ↔
        Accepts cf.caName name ⟨some nid, rule⟩ := by
      unfold Accepts
      cases rule <;> simp
    cases hp : policyLoop cf nid rule true name s with
    | none =>
      have hn : ¬ Accepts cf.caName name ⟨some nid, rule⟩ := by
        intro ha
        have := (key (s ++ name.filter (fun x => decide (some nid = some x.nid)))).mpr
          ⟨rfl, hacc.mpr ha⟩
        rw [hp] at this
        cases this
      simp [hn]
    | some q =>
      obtain ⟨hq, ha⟩ := (key q).mp hp
      have ha := hacc.mp ha
      dsimp only
      rw [policySubject_iff cf name ls q r, hq]
      simp [ha, lets]

/-- C127: a certificate carries the key of the request, whose signature was checked, the name of the
authority as issuer, the number of the serial file, and the subject the policy makes of the one
in the request: for each line in turn the entries it lets through, or all of the request if the
subject is to be preserved, without mail addresses if they are not wanted. -/
theorem C127_content (lib : Lib) (cf : Conf) (e : Env) (csr : Csr) (fs fs' : Fs) (cert : Cert)
    (h : enroll lib cf e csr fs = (fs', .val (some cert))) :
    0 < csr.sig ∧ cert.key = csr.key ∧ cert.issuer = cf.caName ∧
      fs.ser.cur.bind readSerial = some cert.serial ∧
      (∀ l ∈ cf.policy, Accepts cf.caName csr.name l) ∧
      cert.subject = (if cf.preserve then csr.name else cf.policy.flatMap (lets csr.name)).filter
        fun x => cf.emailDn || decide (x.nid ≠ email) := by
  rcases enroll_spec lib cf e csr fs fs' _ h with ⟨_, _, hn⟩ | ⟨rows, u, n, c, rows', _, hs, _, hc, h5⟩
  · exact absurd rfl (hn cert)
  · obtain ⟨t, i, _, _, _, _, h6⟩ := h5
    obtain ⟨rfl, _, _⟩ := h6 cert rfl
    obtain ⟨_, _, h3, _, h5, h6, h7, h8, _, _⟩ := certify_spec hc
    refine ⟨h3, h8, h7, by rw [hs, h6], ?_⟩
    unfold subjectOf at h5
    cases hp : policySubject cf csr.name cf.policy [] with
    | none => rw [hp] at h5; cases h5
    | some s =>
      rw [hp] at h5
      obtain ⟨hs1, hs2⟩ := (policySubject_iff cf csr.name _ _ _).mp hp
      refine ⟨hs2, ?_⟩
      simp at h5 hs1
      rw [← h5, hs1]
      cases cf.emailDn
      · simp; rfl
      · simp [List.filter_eq_self.mpr]

/-- C127: what kinds of strings the subject of the request may have: a mail address that is wanted
is an IA5String, and no entry has characters its kind of string cannot have. -/
theorem C127_strings (lib : Lib) (cf : Conf) (e : Env) (csr : Csr) (fs fs' : Fs) (cert : Cert)
    (h : enroll lib cf e csr fs = (fs', .val (some cert))) (x : Entry) (hx : x ∈ csr.name)
    (hm : x.nid = email → cf.emailDn = true) :
    (x.nid = email → x.type = .ia5) ∧
      (x.type = .printable → ∀ c ∈ x.data, c < 128 ∧ isPrintable c = true) ∧
      (x.type = .ia5 → ∀ c ∈ x.data, c < 128) := by
  rcases enroll_spec lib cf e csr fs fs' _ h with ⟨_, _, hn⟩ | ⟨rows, u, n, c, rows', _, hs, _, hc, h5⟩
  · exact absurd rfl (hn cert)
  · obtain ⟨t, i, _, _, _, _, h6⟩ := h5
    obtain ⟨rfl, _, _⟩ := h6 cert rfl
    obtain ⟨_, _, _, h4, _⟩ := certify_spec hc
    have hok := h4 x hx
    unfold entryOk at hok
    rw [if_neg (by rintro ⟨h1, h2⟩; rw [hm h1] at h2; cases h2)] at hok
    split at hok
    · cases hok
    · rename_i hmail
      have hia : x.nid = email → x.type = .ia5 := fun h1 => by
        cases ht : x.type <;> simp_all
      refine ⟨hia, fun ht => ?_, fun ht => ?_⟩
      · rw [if_pos (by rw [ht]; decide)] at hok
        rw [ht] at hok
        unfold printableType at hok
        by_cases h1 : x.data.any (128 ≤ ·) = true
        · rw [if_pos h1] at hok; cases hok
        · rw [if_neg h1] at hok
          by_cases h2 : x.data.all isPrintable = true
          · intro c hc
            refine ⟨?_, List.all_eq_true.mp h2 c hc⟩
            simp at h1
            exact h1 c hc
          · rw [if_neg h2] at hok; cases hok
      · rw [if_pos (by rw [ht]; decide)] at hok
        rw [ht] at hok
        unfold printableType at hok
        by_cases h1 : x.data.any (128 ≤ ·) = true
        · rw [if_pos h1] at hok; cases hok
        · intro c hc
          simp at h1
          exact h1 c hc

/-- C127: a serial file whose number has an odd number of digits stops the authority. -/
theorem C127_odd_serial (lib : Lib) (cf : Conf) (e : Env) (csr : Csr) (fs : Fs) (d t : List Nat)
    (hd : ∀ c ∈ d, isHex c = true) (hodd : d.length % 2 = 1)
    (hf : fs.ser.cur = some (d ++ 10 :: t)) : enroll lib cf e csr fs = (fs, .val none) := by
  have h1 : (d ++ 10 :: t).takeWhile (· != 10) = d := by
    rw [List.takeWhile_append_of_pos]
    · simp
    · intro c hc
      have := hd c hc
      simp
      rintro rfl
      exact absurd this (by decide)
  have h2 : d.takeWhile isHex = d := by
    have := List.takeWhile_append_of_pos (l₁ := d) (l₂ := []) hd
    simpa using this
  have hr : fs.ser.cur.bind readSerial = none := by
    rw [hf]
    simp only [Option.bind_some, readSerial, h1, h2]
    rw [if_pos (.inr (by omega))]
  unfold enroll
  rw [hr]
  split
  · rfl
  · cases loadIndex cf e fs with
    | none => rfl
    | some x => rfl

/-- The extensions of a request that are not configured, the first of each kind. -/
def extra : List Ext → List Ext → List Ext
  | _, [] => []
  | have_, x :: xs =>
    if x.oid ∈ have_.map Ext.oid then extra have_ xs else x :: extra (have_ ++ [x]) xs

theorem copyExts_never (a b : List Ext) : copyExts .never a b = a := by
  cases b <;> rfl

theorem copyExts_add (b : List Ext) : ∀ a : List Ext, copyExts .add a b = a ++ extra a b := by
  induction b with
  | nil => intro a; simp [copyExts, extra]
  | cons x xs ih =>
    intro a
    unfold copyExts extra
    dsimp only
    by_cases hx : a.any (fun y => y.oid == x.oid) = true
    · have : x.oid ∈ a.map Ext.oid := by
        simp at hx ⊢
        exact hx
      rw [if_pos hx, if_pos this, ih]
    · have : x.oid ∉ a.map Ext.oid := by
        simp at hx ⊢
        exact hx
      rw [if_neg hx, if_neg this, ih]; simp

theorem copyExts_all (b : List Ext) : ∀ (a : List Ext) (oid : Nat),
    (copyExts .all a b).filter (fun y => y.oid == oid) =
      match (b.filter fun y => y.oid == oid).getLast? with
      | some x => [x]
      | none => a.filter fun y => y.oid == oid := by
  induction b with
  | nil => intro a oid; rfl
  | cons x xs ih =>
    intro a oid
    unfold copyExts
    dsimp only
    rw [ih]
    by_cases hx : x.oid = oid
    · subst hx
      have h1 : (x :: xs).filter (fun y => y.oid == x.oid) =
          x :: xs.filter (fun y => y.oid == x.oid) := by simp
      rw [h1, List.getLast?_cons]
      cases hl : (xs.filter fun y => y.oid == x.oid).getLast? with
      | some y => simp
      | none =>
        simp [List.filter_append]
    · have h1 : (x :: xs).filter (fun y => y.oid == oid) = xs.filter (fun y => y.oid == oid) := by
        simp [hx]
      rw [h1]
      cases hl : (xs.filter fun y => y.oid == oid).getLast? with
      | some y => rfl
      | none =>
        dsimp only
        rw [List.filter_append]
        simp only [List.filter_filter]
        have h2 : [x].filter (fun y => y.oid == oid) = [] := by simp [hx]
        rw [h2, List.append_nil]
        congr
        funext y
        by_cases hy : y.oid = oid
        · simp [hy]; exact fun h => hx h.symm
        · simp [hy]

/-- C127: the extensions.  Without copying they are the configured ones; with `copy` the configured
ones come first and nothing in the request changes them; with `copyall` the last of each kind in
the request takes the place of the configured ones. -/
theorem C127_extensions (lib : Lib) (cf : Conf) (e : Env) (csr : Csr) (fs fs' : Fs) (cert : Cert)
    (h : enroll lib cf e csr fs = (fs', .val (some cert))) :
    (cf.copy = .never → cert.exts = cf.exts) ∧
      (cf.copy = .add → cert.exts = cf.exts ++ extra cf.exts csr.exts) ∧
      (cf.copy = .all → ∀ oid, cert.exts.filter (fun y => y.oid == oid) =
        match (csr.exts.filter fun y => y.oid == oid).getLast? with
        | some x => [x]
        | none => cf.exts.filter fun y => y.oid == oid) := by
  rcases enroll_spec lib cf e csr fs fs' _ h with ⟨_, _, hn⟩ | ⟨rows, u, n, c, rows', _, hs, _, hc, h5⟩
  · exact absurd rfl (hn cert)
  · obtain ⟨t, i, _, _, _, _, h6⟩ := h5
    obtain ⟨rfl, _, _⟩ := h6 cert rfl
    obtain ⟨_, _, _, _, _, _, _, _, h9, _⟩ := certify_spec hc
    rw [h9]
    refine ⟨fun hx => ?_, fun hx => ?_, fun hx oid => ?_⟩ <;> rw [hx]
    · exact copyExts_never _ _
    · exact copyExts_add _ _
    · exact copyExts_all _ _ _

/-! ### Serial numbers -/

/-- Everything goes well. -/
def well : Env := ⟨true, true, true, true, true, .ok, .ok, .ok, .ok, .ok, .ok, .ok, .ok, .ok, .ok,
  .ok, .ok, .ok, .ok, .ok, .ok, true⟩

/-- A library whose names on one line are the data of the entries, with a hash that adds up. -/
def demo : Lib := ⟨fun s => s.flatMap Entry.data, List.sum, rfl⟩

/-- An authority that wants a common name. -/
def confOf (unique : Bool) (rule : Rule) : Conf :=
  ⟨[⟨some 13, rule⟩], unique, true, false, .never, [], [⟨13, .utf8, [67, 65]⟩]⟩

/-- A request for the common name `cn`. -/
def csrOf (cn : List Nat) : Csr := ⟨true, true, 1, [⟨13, .utf8, cn⟩], 7, []⟩

/-- The files of an authority whose next serial number is `n`. -/
def filesOf (n : Nat) : Fs := ⟨⟨some (serialText n), none, none⟩, ⟨some ⟨[], false⟩, none, none⟩,
  ⟨none, none, none⟩⟩

example : (enroll demo (confOf false .supplied) well (csrOf [65]) (filesOf 1)).2 =
    .val (some ⟨1, [⟨13, .utf8, [67, 65]⟩], [⟨13, .utf8, [65]⟩], 7, []⟩) := by decide +kernel

/-- A request with a mail address of the right kind gets a certificate, one of another kind none;
the name of another kind of string would pass. -/
example : (∃ c, (enroll demo (confOf false .supplied) well
      ⟨true, true, 1, [⟨13, .printable, [65]⟩, ⟨48, .ia5, [97, 64, 98]⟩], 7, []⟩ (filesOf 1)).2 =
        .val (some c)) ∧
    (enroll demo (confOf false .supplied) well
      ⟨true, true, 1, [⟨13, .printable, [65]⟩, ⟨48, .utf8, [97, 64, 98]⟩], 7, []⟩ (filesOf 1)).2 =
        .val none :=
  ⟨⟨⟨1, [⟨13, .utf8, [67, 65]⟩], [⟨13, .printable, [65]⟩], 7, []⟩, by decide +kernel⟩,
    by decide +kernel⟩

/-- A file with three digits. -/
example (lib : Lib) (cf : Conf) (csr : Csr) :
    (enroll lib cf well csr { filesOf 1 with ser := ⟨some [49, 50, 51, 10], none, none⟩ }).2 = .val none := by
  rw [C127_odd_serial lib cf well csr _ [49, 50, 51] [] (by decide) (by decide) rfl]

/-- What `run` does with one call more. -/
theorem run_cons (lib : Lib) (fs : Fs) (c : Call) (cs : List Call) :
    (∃ fs', enroll lib c.cf c.env c.csr fs = (fs', .ub) ∧ (run lib fs (c :: cs)).1 = []) ∨
    (∃ fs' o, enroll lib c.cf c.env c.csr fs = (fs', o) ∧ (∀ cert, o ≠ .val (some cert)) ∧
      (run lib fs (c :: cs)).1 = (run lib fs' cs).1) ∨
    ∃ fs' cert, enroll lib c.cf c.env c.csr fs = (fs', .val (some cert)) ∧
      (run lib fs (c :: cs)).1 = cert :: (run lib fs' cs).1 := by
  rw [run]
  rcases h : enroll lib c.cf c.env c.csr fs with ⟨fs', _ | _ | _⟩
  · rename_i a
    cases a with
    | none => exact .inr (.inl ⟨fs', _, rfl, by simp, rfl⟩)
    | some cert => exact .inr (.inr ⟨fs', cert, rfl, rfl⟩)
  · exact .inr (.inl ⟨fs', _, rfl, by simp, rfl⟩)
  · exact .inl ⟨fs', rfl, rfl⟩

/-- The serial file, as long as it can be read, is above all numbers in `S`. -/
def Above (fs : Fs) (S : List Nat) : Prop :=
  ∀ n, fs.ser.cur.bind readSerial = some n → ∀ m ∈ S, m < n

theorem above_run (lib : Lib) : ∀ (cs : List Call) (fs : Fs) (S : List Nat), Above fs S →
    (∀ c ∈ cs, ∀ k b h, c.env.wSer ≠ .cut k b h) →
    (∀ m ∈ S, m ∉ (run lib fs cs).1.map Cert.serial) ∧
      ((run lib fs cs).1.map Cert.serial).Pairwise (· < ·)
  | [], fs, S, _, _ => by simp [run]
  | c :: cs, fs, S, ha, hw => by
    have hc := hw c (by simp)
    have hcs : ∀ c' ∈ cs, ∀ k b h, c'.env.wSer ≠ .cut k b h := fun c' hc' => hw c' (by simp [hc'])
    have next : ∀ fs' o, enroll lib c.cf c.env c.csr fs = (fs', o) → Above fs' S ∧
        ∀ cert, o = .val (some cert) → Above fs' (cert.serial :: S) ∧ ∀ m ∈ S, m < cert.serial := by
      intro fs' o he
      rcases enroll_spec _ _ _ _ _ _ _ he with ⟨h1, _, h3⟩ | ⟨rows, u, n, cert, rows', _, hn, _, hct, t, i, ht, _, h1, _, h3⟩
      · refine ⟨?_, fun cert e => absurd e (h3 cert)⟩
        intro n hn
        rw [h1] at hn
        exact ha n hn
      · have hlt := ha n hn
        have h4 : Above fs' S := by
          intro n' hn'
          rcases h1 with h1 | h1 | h1
          · rw [h1] at hn'; cases hn'
          · rw [h1] at hn'; exact ha n' hn'
          · rw [h1, ht hc] at hn'
            simp [readSerial_serialText] at hn'
            intro m hm
            have := hlt m hm
            omega
        refine ⟨h4, fun cert' e => ?_⟩
        obtain ⟨rfl, h5, _⟩ := h3 cert' e
        have hser := (certify_spec hct).2.2.2.2.2.1
        refine ⟨?_, by rw [hser]; exact hlt⟩
        intro n' hn' m hm
        rw [h5, ht hc] at hn'
        simp [readSerial_serialText] at hn'
        rcases List.mem_cons.mp hm with rfl | hm
        · omega
        · have := hlt m hm; omega
    rcases run_cons lib fs c cs with ⟨fs', he, hr⟩ | ⟨fs', o, he, ho, hr⟩ | ⟨fs', cert, he, hr⟩
    · rw [hr]; simp
    · rw [hr]
      exact above_run lib cs fs' S (next fs' o he).1 hcs
    · rw [hr]
      obtain ⟨h1, h2⟩ := (next fs' _ he).2 cert rfl
      obtain ⟨i1, i2⟩ := above_run lib cs fs' _ h1 hcs
      have i3 : ∀ m ∈ cert.serial :: S, m ∉ (run lib fs' cs).1.map Cert.serial := i1
      -- all later numbers are larger
      have later : ∀ m ∈ (run lib fs' cs).1.map Cert.serial, cert.serial < m := by
        have : ∀ (cs : List Call) (fs : Fs) (b : Nat),
            (∀ n, fs.ser.cur.bind readSerial = some n → b < n) →
            (∀ c ∈ cs, ∀ k b h, c.env.wSer ≠ .cut k b h) →
            ∀ m ∈ (run lib fs cs).1.map Cert.serial, b < m := by
          intro cs
          induction cs with
          | nil => intro fs b _ _ m hm; simp [run] at hm
          | cons c cs ih =>
            intro fs b hb hw m hm
            have hc := hw c (by simp)
            have hcs : ∀ c' ∈ cs, ∀ k b h, c'.env.wSer ≠ .cut k b h :=
              fun c' hc' => hw c' (by simp [hc'])
            have keep : ∀ fs' o, enroll lib c.cf c.env c.csr fs = (fs', o) →
                (∀ n, fs'.ser.cur.bind readSerial = some n → b < n) ∧
                ∀ cert, o = .val (some cert) → b < cert.serial := by
              intro fs' o he
              rcases enroll_spec _ _ _ _ _ _ _ he with ⟨h1, _, h3⟩ | ⟨rows, u, n, cert, rows', _, hn, _, hct, t, i, ht, _, h1, _, h3⟩
              · exact ⟨fun n hn => hb n (by rw [← h1]; exact hn), fun cert e => absurd e (h3 cert)⟩
              · refine ⟨fun n' hn' => ?_, fun cert' e => ?_⟩
                · rcases h1 with h1 | h1 | h1
                  · rw [h1] at hn'; cases hn'
                  · rw [h1] at hn'; exact hb n' hn'
                  · rw [h1, ht hc] at hn'
                    simp [readSerial_serialText] at hn'
                    have := hb n hn
                    omega
                · obtain ⟨rfl, _⟩ := h3 cert' e
                  rw [(certify_spec hct).2.2.2.2.2.1]
                  exact hb n hn
            rcases run_cons lib fs c cs with ⟨fs', he, hr⟩ | ⟨fs', o, he, ho, hr⟩ | ⟨fs', cert, he, hr⟩
            · rw [hr] at hm; simp at hm
            · rw [hr] at hm
              exact ih fs' b (keep fs' o he).1 hcs m hm
            · rw [hr] at hm
              simp only [List.map_cons, List.mem_cons] at hm
              rcases hm with rfl | hm
              · exact (keep fs' _ he).2 cert rfl
              · exact ih fs' b (keep fs' _ he).1 hcs m hm
        exact this cs fs' cert.serial (fun n hn => h1 n hn _ (by simp)) hcs
      refine ⟨fun m hm => ?_, ?_⟩
      · simp only [List.map_cons, List.mem_cons, not_or]
        refine ⟨?_, i3 m (by simp [hm])⟩
        have := h2 m hm
        omega
      · rw [List.map_cons, List.pairwise_cons]
        exact ⟨later, i2⟩

/-- C127: as long as the serial number is written whole, the certificates given out have increasing
serial numbers, whatever fails otherwise, whenever the process is killed, and even if the index is
lost. -/
theorem C127_serials_increase (lib : Lib) (fs : Fs) (cs : List Call)
    (hw : ∀ c ∈ cs, ∀ k b h, c.env.wSer ≠ .cut k b h) :
    ((run lib fs cs).1.map Cert.serial).Pairwise (· < ·) :=
  (above_run lib cs fs [] (by intro n _ m hm; cases hm) hw).2

example : ∀ c ∈ [⟨confOf false .supplied, well, csrOf [65]⟩, ⟨confOf false .supplied, well, csrOf [66]⟩],
    ∀ k b h, (c : Call).env.wSer ≠ .cut k b h := by
  intro c hc; simp at hc; rcases hc with rfl | rfl <;> simp [well]

example : ((run demo (filesOf 255) [⟨confOf false .supplied, well, csrOf [65]⟩,
    ⟨confOf false .supplied, well, csrOf [66]⟩]).1.map Cert.serial) = [255, 256] := by decide +kernel

/-- The index, if it is there, has a line for every number in `S`. -/
def Listed (fs : Fs) (S : List Nat) : Prop :=
  ∀ i, fs.db.cur = some i → ∀ m ∈ S, ∃ r ∈ i.rows, strip r.serial = strip (hexText m)

/-- C127: as long as the index is written whole or the failure is noticed, no serial number is given
out twice, whatever happens to the serial file. -/
theorem C127_serials_unique (lib : Lib) : ∀ (cs : List Call) (fs : Fs) (S : List Nat),
    Listed fs S → (∀ c ∈ cs, ∀ k b, c.env.wDb ≠ .cut k b .silent) →
    ((run lib fs cs).1.map Cert.serial).Nodup ∧ ∀ m ∈ S, m ∉ (run lib fs cs).1.map Cert.serial
  | [], fs, S, _, _ => by simp [run]
  | c :: cs, fs, S, ha, hw => by
    have hc := hw c (by simp)
    have hcs : ∀ c' ∈ cs, ∀ k b, c'.env.wDb ≠ .cut k b .silent := fun c' hc' => hw c' (by simp [hc'])
    have next : ∀ fs' o, enroll lib c.cf c.env c.csr fs = (fs', o) → Listed fs' S ∧
        ∀ cert, o = .val (some cert) → Listed fs' (cert.serial :: S) ∧ cert.serial ∉ S := by
      intro fs' o he
      rcases enroll_spec _ _ _ _ _ _ _ he with ⟨_, h1, h3⟩ | ⟨rows, u, n, cert, rows', hl, hn, _, hct, t, i, _, hi, _, h1, h3⟩
      · refine ⟨?_, fun cert e => absurd e (h3 cert)⟩
        intro i hi
        rw [h1] at hi
        exact ha i hi
      · have hdb := (loadIndex_spec hl).1
        obtain ⟨_, _, _, _, _, hser, _, _, _, hins⟩ := certify_spec hct
        obtain ⟨hrows, hfresh, _⟩ := insertRow_spec hins
        have hold := ha _ hdb
        have h4 : Listed fs' S := by
          intro i' hi'
          rcases h1 with h1 | h1 | h1
          · rw [h1] at hi'; cases hi'
          · rw [h1] at hi'; exact ha i' hi'
          · rw [h1, hi hc] at hi'
            cases hi'
            intro m hm
            obtain ⟨r, hr, he⟩ := hold m hm
            exact ⟨r, by rw [hrows]; simp [hr], he⟩
        refine ⟨h4, fun cert' e => ?_⟩
        obtain ⟨rfl, _, h6⟩ := h3 cert' e
        refine ⟨?_, ?_⟩
        · intro i' hi' m hm
          rcases List.mem_cons.mp hm with rfl | hm
          · rw [h6, hi hc] at hi'
            cases hi'
            exact ⟨⟨86, false, true, hexText n, lib.oneline cert'.subject⟩, by rw [hrows]; simp,
              by rw [hser]⟩
          · exact h4 i' hi' m hm
        · intro hm
          obtain ⟨r, hr, he⟩ := hold _ hm
          rw [hser] at he
          exact hfresh r hr he
    rcases run_cons lib fs c cs with ⟨fs', he, hr⟩ | ⟨fs', o, he, ho, hr⟩ | ⟨fs', cert, he, hr⟩
    · rw [hr]; simp
    · rw [hr]
      exact C127_serials_unique lib cs fs' S (next fs' o he).1 hcs
    · rw [hr]
      obtain ⟨h1, h2⟩ := (next fs' _ he).2 cert rfl
      obtain ⟨i1, i2⟩ := C127_serials_unique lib cs fs' _ h1 hcs
      refine ⟨?_, fun m hm => ?_⟩
      · rw [List.map_cons, List.nodup_cons]
        exact ⟨i2 _ (by simp), i1⟩
      · simp only [List.map_cons, List.mem_cons, not_or]
        exact ⟨fun e => h2 (by rw [← e]; exact hm), i2 m (by simp [hm])⟩

example : Listed (filesOf 1) [] ∧ ∀ c ∈ [(⟨confOf false .supplied, well, csrOf [65]⟩ : Call)],
    ∀ k b, c.env.wDb ≠ .cut k b .silent := by
  refine ⟨?_, ?_⟩
  · intro i _ m hm; cases hm
  · intro c hc; simp at hc; rw [hc]; simp [well]

/-- The disk is full and nobody notices: no line of the index is written. -/
def indexLost : Env := { well with wDb := .cut 0 false .silent }

/-- C127, false of the code: if the disk is full and neither write is noticed, a serial number is
given out again.  The numbers 1 to 255 are given out, the next number 256 is written as `0100` and
cut off after two digits, and the index after no line. -/
theorem C127_serials_unique_false :
    ∃ cs : List Call, (run demo (filesOf 1) cs).2.2 = true ∧
      ¬ ((run demo (filesOf 1) cs).1.map Cert.serial).Nodup := by
  refine ⟨List.replicate 254 ⟨confOf false .supplied, indexLost, csrOf [65]⟩ ++
    [⟨confOf false .supplied, { indexLost with wSer := .cut 2 false .silent }, csrOf [65]⟩,
     ⟨confOf false .supplied, well, csrOf [65]⟩], by decide +kernel, ?_⟩
  rw [show (run demo (filesOf 1) _).1.map Cert.serial = (List.range' 1 255) ++ [1] by
    decide +kernel]
  decide +kernel

/-! ### Subjects -/

/-- Something holds of the file under each of the names. -/
def AllG {α : Type} (P : α → Prop) (g : Gens α) : Prop := ∀ n a, g.get n = some a → P a

theorem AllG.mv {α : Type} {P : α → Prop} {g g' : Gens α} {m : Mv} {a b : Gen} {r : MvRes}
    (h : AllG P g) (hm : mv m a b g = some (g', r)) : AllG P g' := by
  rcases mv_cases m a b g with e | ⟨e, _⟩ | ⟨e, _⟩ | ⟨x, hx, _, e⟩
  · rw [e] at hm; cases hm
  · rw [e] at hm; cases hm; exact h
  · rw [e] at hm; cases hm; exact h
  · rw [e] at hm; cases hm
    intro n y hy
    have hpx := h a x hx
    have hc := h .cur
    have hn := h .new
    have ho := h .old
    cases a <;> cases b <;> cases n <;> simp [Gens.get, Gens.set] at hy hc hn ho hx <;>
      first
      | (subst hy; exact hpx)
      | exact hc _ hy
      | exact hn _ hy
      | exact ho _ hy

theorem AllG.rotateAtt {P : Att → Prop} {e : Env} {d : Gens Idx} {a : Gens Att} (h : AllG P a) :
    AllG P (rotateAtt e d a).2.1 := by
  unfold SampleCa.rotateAtt
  cases h1 : SampleCa.mv e.a1 .cur .old a with
  | none => exact h
  | some q =>
    obtain ⟨a1, r⟩ := q
    have p1 := h.mv h1
    have rest : AllG P (match SampleCa.mv e.a2 .new .cur a1 with
        | none => (d, a1, .killed)
        | some (a2, .ok) => (d, a2, .val true)
        | some (a2, _) =>
          match SampleCa.mv e.a2' .old .cur a2 with
          | none => (d, a2, .killed)
          | some (a3, _) => let r := undoDb e.a2'' e.a2''' d
                            (r.1, a3, r.2) : Gens Idx × Gens Att × Out Bool).2.1 := by
      cases h2 : SampleCa.mv e.a2 .new .cur a1 with
      | none => exact p1
      | some q =>
        obtain ⟨a2, r⟩ := q
        have p2 := p1.mv h2
        have rest : AllG P (match SampleCa.mv e.a2' .old .cur a2 with
          | none => (d, a2, .killed)
          | some (a3, _) => let r := undoDb e.a2'' e.a2''' d
                            (r.1, a3, r.2) : Gens Idx × Gens Att × Out Bool).2.1 := by
          cases h3 : SampleCa.mv e.a2' .old .cur a2 with
          | none => exact p2
          | some q => exact p2.mv h3
        cases r
        · exact p2
        · exact rest
        · exact rest
    cases r
    · exact rest
    · exact rest
    · exact p1

theorem AllG.rotateIndex {P : Att → Prop} {e : Env} {d : Gens Idx} {a : Gens Att} (h : AllG P a) :
    AllG P (rotateIndex e d a).2.1 := by
  unfold SampleCa.rotateIndex
  cases h1 : SampleCa.mv e.d1 .cur .old d with
  | none => exact h
  | some q =>
    obtain ⟨d1, r⟩ := q
    have rest : AllG P (match SampleCa.mv e.d2 .new .cur d1 with
      | none => (d1, a, .killed)
      | some (d2, .ok) => SampleCa.rotateAtt e d2 a
      | some (d2, _) =>
        match SampleCa.mv e.d2' .old .cur d2 with
        | none => (d2, a, .killed)
        | some (d3, _) => (d3, a, .val false) : Gens Idx × Gens Att × Out Bool).2.1 := by
      cases h2 : SampleCa.mv e.d2 .new .cur d1 with
      | none => exact h
      | some q =>
        obtain ⟨d2, r⟩ := q
        cases r
        · exact h.rotateAtt
        all_goals
          dsimp only
          cases SampleCa.mv e.d2' .old .cur d2 <;> exact h
    cases r
    · exact rest
    · exact rest
    · exact h

/-- No file says that subjects need not be unique. -/
def Strict (fs : Fs) : Prop := AllG (fun a : Att => a.unique ≠ some false) fs.att

theorem Strict.unique {cf : Conf} {e : Env} {fs : Fs} {rows : List Row} {u : Bool}
    (h : Strict fs) (hu : cf.unique = true) (hl : loadIndex cf e fs = some (rows, u)) :
    u = true := by
  rcases (loadIndex_spec hl).2.1 with ⟨_, e⟩ | ⟨a, ha, e⟩
  · rw [e, hu]
  · have := h .cur a ha
    rw [e]
    cases hx : a.unique with
    | none => simpa using hu
    | some b => cases b with
      | true => rfl
      | false => exact absurd hx this

theorem saveSerial_att (e : Env) (n : Nat) (fs : Fs) : (saveSerial e n fs).1.att = fs.att :=
  (saveSerial_spec e n fs _ rfl).2.2.1

theorem saveIndex_att {e : Env} {rows : List Row} {fs : Fs} (h : Strict fs) :
    Strict (saveIndex e rows true fs).1 := by
  have key : ∀ fs' : Fs, Strict fs' → Strict (saveIndex.saveAtt e true fs').1 := by
    intro fs' h'
    have hc := h' .cur
    have ho := h' .old
    unfold saveIndex.saveAtt
    cases e.wAtt with
    | noOpen => exact h'
    | ok =>
      intro g a ha
      cases g <;> simp [Gens.get] at ha hc ho
      · exact hc a ha
      · subst ha; simp
      · exact ho a ha
    | cut k b hw =>
      cases hw <;>
      · intro g a ha
        cases g <;> simp [Gens.get] at ha hc ho
        · exact hc a ha
        · subst ha; by_cases hk : k = 0 <;> simp [hk]
        · exact ho a ha
  unfold saveIndex
  cases e.wDb with
  | noOpen => exact h
  | ok => exact key _ h
  | cut k b hw =>
    cases hw with
    | reported => exact h
    | killed => exact h
    | silent => exact key _ h

theorem enroll_strict {lib : Lib} {cf : Conf} {e : Env} {csr : Csr} {fs fs' : Fs}
    {o : Out (Option Cert)} (h : Strict fs) (hu : cf.unique = true)
    (he : enroll lib cf e csr fs = (fs', o)) : Strict fs' := by
  unfold enroll at he
  split at he
  · cases he; exact h
  · split at he
    · rename_i rows u n hl hs
      have hut := h.unique hu hl
      subst hut
      split at he
      · cases he; exact h
      · split at he
        · cases he; exact h
        · cases he; exact h
        · cases he; exact h
        · split at he
          · cases he; exact h
          · rename_i cert rows' hcert hpush
            have h1 := saveSerial_att e (n + 1) fs
            split at he
            · rename_i fs1 hss
              rw [hss] at h1
              have hs1 : Strict fs1 := by unfold Strict; rw [h1]; exact h
              have h2 := saveIndex_att (e := e) (rows := rows') hs1
              split at he
              · rename_i fs2 hsi
                rw [hsi] at h2
                unfold enroll.publish at he
                split at he
                · cases he; exact h2
                · split at he
                  · have h3 := AllG.rotateIndex (e := e) (d := fs2.db) h2
                    split at he <;>
                    · rename_i d a hri
                      rw [hri] at h3
                      cases he
                      exact h3
                  all_goals cases he; exact h2
              all_goals
                rename_i fs2 hsi
                rw [hsi] at h2
                cases he
                exact h2
            all_goals
              rename_i fs1 hss
              rw [hss] at h1
              cases he
              unfold Strict; rw [h1]; exact h
    · cases he; exact h

/-- The index, if it is there, has a valid line for every name in `S`. -/
def Named (fs : Fs) (S : List (List Nat)) : Prop :=
  ∀ i, fs.db.cur = some i → ∀ m ∈ S, ∃ r ∈ i.rows, r.type = 86 ∧ r.name = m

/-- C127: with `unique_subject`, and as long as the index is written whole or the failure is
noticed, no two certificates with the same subject on one line are given out. -/
theorem C127_subjects_unique (lib : Lib) : ∀ (cs : List Call) (fs : Fs) (S : List (List Nat)),
    Named fs S → Strict fs →
    (∀ c ∈ cs, c.cf.unique = true ∧ ∀ k b, c.env.wDb ≠ .cut k b .silent) →
    ((run lib fs cs).1.map fun c => lib.oneline c.subject).Nodup ∧
      ∀ m ∈ S, m ∉ (run lib fs cs).1.map fun c => lib.oneline c.subject
  | [], fs, S, _, _, _ => by simp [run]
  | c :: cs, fs, S, ha, hst, hw => by
    have hc := hw c (by simp)
    have hcs : ∀ c' ∈ cs, c'.cf.unique = true ∧ ∀ k b, c'.env.wDb ≠ .cut k b .silent :=
      fun c' hc' => hw c' (by simp [hc'])
    have next : ∀ fs' o, enroll lib c.cf c.env c.csr fs = (fs', o) → Named fs' S ∧
        ∀ cert, o = .val (some cert) → Named fs' (lib.oneline cert.subject :: S) ∧
          lib.oneline cert.subject ∉ S := by
      intro fs' o he
      rcases enroll_spec _ _ _ _ _ _ _ he with ⟨_, h1, h3⟩ | ⟨rows, u, n, cert, rows', hl, hn, _, hct, t, i, _, hi, _, h1, h3⟩
      · refine ⟨?_, fun cert e => absurd e (h3 cert)⟩
        intro i hi
        rw [h1] at hi
        exact ha i hi
      · have hdb := (loadIndex_spec hl).1
        obtain ⟨_, _, _, _, _, hser, _, _, _, hins⟩ := certify_spec hct
        obtain ⟨hrows, _, hfresh⟩ := insertRow_spec hins
        have hfresh := hfresh (hst.unique hc.1 hl)
        have hold := ha _ hdb
        have h4 : Named fs' S := by
          intro i' hi'
          rcases h1 with h1 | h1 | h1
          · rw [h1] at hi'; cases hi'
          · rw [h1] at hi'; exact ha i' hi'
          · rw [h1, hi hc.2] at hi'
            cases hi'
            intro m hm
            obtain ⟨r, hr, he⟩ := hold m hm
            exact ⟨r, by rw [hrows]; simp [hr], he⟩
        refine ⟨h4, fun cert' e => ?_⟩
        obtain ⟨rfl, _, h6⟩ := h3 cert' e
        refine ⟨?_, ?_⟩
        · intro i' hi' m hm
          rcases List.mem_cons.mp hm with rfl | hm
          · rw [h6, hi hc.2] at hi'
            cases hi'
            exact ⟨⟨86, false, true, hexText n, lib.oneline cert'.subject⟩, by rw [hrows]; simp,
              rfl, rfl⟩
          · exact h4 i' hi' m hm
        · intro hm
          obtain ⟨r, hr, h7, h8⟩ := hold _ hm
          exact hfresh r hr h7 h8
    rcases run_cons lib fs c cs with ⟨fs', he, hr⟩ | ⟨fs', o, he, ho, hr⟩ | ⟨fs', cert, he, hr⟩
    · rw [hr]; simp
    · rw [hr]
      exact C127_subjects_unique lib cs fs' S (next fs' o he).1 (enroll_strict hst hc.1 he) hcs
    · rw [hr]
      obtain ⟨h1, h2⟩ := (next fs' _ he).2 cert rfl
      obtain ⟨i1, i2⟩ := C127_subjects_unique lib cs fs' _ h1 (enroll_strict hst hc.1 he) hcs
      refine ⟨?_, fun m hm => ?_⟩
      · rw [List.map_cons, List.nodup_cons]
        exact ⟨i2 _ (by simp), i1⟩
      · simp only [List.map_cons, List.mem_cons, not_or]
        exact ⟨fun e => h2 (by rw [← e]; exact hm), i2 m (by simp [hm])⟩

example : Named (filesOf 1) [] ∧ Strict (filesOf 1) := by
  refine ⟨?_, ?_⟩
  · intro i _ m hm; cases hm
  · intro g a h; cases g <;> simp [filesOf, Gens.get] at h

/-- With `unique_subject` the second request for the same name is refused. -/
example : ((run demo (filesOf 1) [⟨confOf true .supplied, well, csrOf [65]⟩,
    ⟨confOf true .supplied, well, csrOf [65]⟩, ⟨confOf true .supplied, well, csrOf [66]⟩]).1.map
      Cert.serial) = [1, 2] := by decide +kernel

/-- C127, false of the code: the search for the subject comes before the subject is filled in, so
the hash of NULL is looked for.  It is 0, which also is the hash of the empty string: with
`unique_subject`, once a certificate with an empty subject is in the index every further request
that the policy lets through compares that string with NULL. -/
theorem C127_empty_subject_false (lib : Lib) (cf : Conf) (e : Env) (csr : Csr) (fs : Fs)
    (rows : List Row) (n : Nat) (subject : List Entry) (r : Row)
    (hl : loadIndex cf e fs = some (rows, true)) (hn : fs.ser.cur.bind readSerial = some n)
    (he : e.config = true ∧ e.readSer = true)
    (hr : r ∈ rows) (ht : r.type = 86) (hm : r.name = [])
    (hc : csr.decodes = true ∧ csr.keyOk = true ∧ 0 < csr.sig ∧ ∀ x ∈ csr.name, entryOk cf x = true)
    (hs : subjectOf cf csr.name = some subject) :
    enroll lib cf e csr fs = (fs, .ub) := by
  have hnull : comparesNull lib rows = true := by
    unfold comparesNull
    rw [List.any_eq_true]
    exact ⟨r, hr, by simp [ht, hm, lib.hash_nil]⟩
  have hcert : certify lib cf e csr rows true n = .ub := by
    unfold certify
    rw [if_neg (by simp [hc.1, hc.2.1]; omega), if_neg (by simp; exact hc.2.2.2), hs]
    dsimp only
    rw [if_pos (by simp [hnull])]
  unfold enroll
  rw [if_neg (by simp [he.1]), hl, hn]
  dsimp only
  rw [if_neg (by simp [he.2]), hcert]

/-- A client without a name brings the server down for the next one. -/
example : (run demo (filesOf 1) [⟨confOf true .optional, well, ⟨true, true, 1, [], 7, []⟩⟩,
    ⟨confOf true .optional, well, csrOf [65]⟩]).2.2 = false ∧
    (run demo (filesOf 1) [⟨confOf true .optional, well, ⟨true, true, 1, [], 7, []⟩⟩,
    ⟨confOf true .optional, well, csrOf [65]⟩]).1.length = 1 := by decide +kernel

/-- C127, false of the code: a serial number of 126 bytes overruns the array for a file name that
nobody uses. -/
theorem C127_long_serial_false :
    (run demo (filesOf (256 ^ 125)) [⟨confOf false .supplied, well, csrOf [65]⟩]).2.2 = false ∧
      (run demo (filesOf (256 ^ 125 - 1)) [⟨confOf false .supplied, well, csrOf [65]⟩]).2.2 =
        true := by
  decide +kernel

/-! ### Going on -/

/-- The files are in order: the next number is `n`, the index can be read, has no line for `n` or a
later number, and no file of attributes says anything but `u` about unique subjects. -/
structure InOrder (fs : Fs) (n : Nat) (u : Bool) : Prop where
  serial : fs.ser.cur.bind readSerial = some n
  index : ∃ rows, fs.db.cur = some ⟨rows, false⟩ ∧ (∀ r ∈ rows, rowOk r = true) ∧
    noDupSerial rows = true ∧ (u = true → noDupName rows = true) ∧
    ∀ r ∈ rows, ∀ m, n ≤ m → strip r.serial ≠ strip (hexText m)
  attr : AllG (fun a : Att => a.bad = false ∧ a.unique.getD u = u) fs.att

/-- Files may not open and may not be renamed, but what is written is written whole or the failure
is noticed, renaming back works, and the process is not killed. -/
structure Soft (e : Env) : Prop where
  wSer : ∀ k b h, e.wSer ≠ .cut k b h
  wDb : ∀ k b h, e.wDb = .cut k b h → h = .reported
  wAtt : ∀ k b h, e.wAtt ≠ .cut k b h
  forth : e.s1 ≠ .die ∧ e.s2 ≠ .die ∧ e.d1 ≠ .die ∧ e.d2 ≠ .die ∧ e.a1 ≠ .die ∧ e.a2 ≠ .die
  back : e.s3 = .ok ∧ e.d2' = .ok ∧ e.a1' = .ok ∧ e.a1'' = .ok ∧ e.a2' ≠ .die ∧ e.a2'' = .ok ∧
    e.a2''' = .ok

theorem mv_forth {α : Type} {m : Mv} {a b : Gen} {g : Gens α} {x : α} (hm : m ≠ .die)
    (hx : g.get a = some x) :
    mv m a b g = some (g, .error) ∨ mv m a b g = some ((g.set b (some x)).set a none, .ok) := by
  unfold mv
  rw [hx]
  cases m <;> simp at hm ⊢

theorem mv_back {α : Type} {a b : Gen} {g : Gens α} {x : α} (hx : g.get a = some x) :
    mv .ok a b g = some ((g.set b (some x)).set a none, .ok) := by
  unfold mv; rw [hx]

theorem rotateSerial_soft {e : Env} (h : Soft e) {g : Gens (List Nat)} {c t : List Nat}
    (hc : g.cur = some c) (ht : g.new = some t) :
    (∃ g', rotateSerial e g = (g', .val true) ∧ g'.cur = some t) ∨
      ∃ g', rotateSerial e g = (g', .val false) ∧ g'.cur = some c := by
  unfold rotateSerial
  rcases mv_forth (b := .old) h.forth.1 (show g.get .cur = some c from hc) with q | q
  · rw [q]; exact .inr ⟨g, rfl, hc⟩
  · rw [q]
    dsimp only
    rcases mv_forth (b := .cur) (g := (g.set .old (some c)).set .cur none) (a := .new) (x := t)
      h.forth.2.1 ht with q | q
    · rw [q]
      dsimp only
      rw [h.back.1, mv_back (g := (g.set .old (some c)).set .cur none) (a := .old) (x := c) rfl]
      exact .inr ⟨_, rfl, rfl⟩
    · rw [q]; exact .inl ⟨_, rfl, rfl⟩

theorem undoDb_soft {d : Gens Idx} {c i : Idx} (hc : d.cur = some i) (ho : d.old = some c) :
    ∃ d', undoDb .ok .ok d = (d', .val false) ∧ d'.cur = some c := by
  unfold undoDb
  rw [mv_back (show d.get .cur = some i from hc)]
  dsimp only
  rw [mv_back (g := (d.set .new (some i)).set .cur none) (a := .old) (x := c) ho]
  exact ⟨_, rfl, rfl⟩

theorem rotateAtt_soft {e : Env} (h : Soft e) {d : Gens Idx} {c i : Idx} (a : Gens Att)
    (hc : d.cur = some i) (ho : d.old = some c) :
    (∃ d' a', rotateAtt e d a = (d', a', .val true) ∧ d'.cur = some i) ∨
      ∃ d' a', rotateAtt e d a = (d', a', .val false) ∧ d'.cur = some c := by
  obtain ⟨_, _, _, _, f1, f2⟩ := h.forth
  obtain ⟨_, _, b1, b2, b3, b4, b5⟩ := h.back
  obtain ⟨d', hd, hd'⟩ := undoDb_soft hc ho
  have nodie : ∀ (m : Mv) (x y : Gen) (g : Gens Att), m ≠ .die → ∃ g' r, mv m x y g = some (g', r) := by
    intro m x y g hm
    unfold mv
    cases m <;> cases g.get x <;> simp at hm ⊢
  unfold rotateAtt
  obtain ⟨a1, r1, q1⟩ := nodie e.a1 .cur .old a f1
  obtain ⟨a2, r2, q2⟩ := nodie e.a2 .new .cur a1 f2
  obtain ⟨a3, r3, q3⟩ := nodie e.a2' .old .cur a2 b3
  rw [q1, b1, b2, b4, b5, hd]
  have rest : (∃ d'' a', (match mv e.a2 .new .cur a1 with
      | none => (d, a1, .killed)
      | some (a2, .ok) => (d, a2, .val true)
      | some (a2, _) =>
        match mv e.a2' .old .cur a2 with
        | none => (d, a2, .killed)
        | some (a3, _) => (d', a3, .val false) : Gens Idx × Gens Att × Out Bool) =
          (d'', a', .val true) ∧ d''.cur = some i) ∨
      ∃ d'' a', (match mv e.a2 .new .cur a1 with
      | none => (d, a1, .killed)
      | some (a2, .ok) => (d, a2, .val true)
      | some (a2, _) =>
        match mv e.a2' .old .cur a2 with
        | none => (d, a2, .killed)
        | some (a3, _) => (d', a3, .val false) : Gens Idx × Gens Att × Out Bool) =
          (d'', a', .val false) ∧ d''.cur = some c := by
    rw [q2]
    cases r2
    · exact .inl ⟨d, a2, rfl, hc⟩
    · dsimp only; rw [q3]; exact .inr ⟨d', a3, rfl, hd'⟩
    · dsimp only; rw [q3]; exact .inr ⟨d', a3, rfl, hd'⟩
  cases r1
  · exact rest
  · exact rest
  · exact .inr ⟨d', a1, rfl, hd'⟩

theorem rotateIndex_soft {e : Env} (h : Soft e) {d : Gens Idx} {c i : Idx} (a : Gens Att)
    (hc : d.cur = some c) (hn : d.new = some i) :
    (∃ d' a', rotateIndex e d a = (d', a', .val true) ∧ d'.cur = some i) ∨
      ∃ d' a', rotateIndex e d a = (d', a', .val false) ∧ d'.cur = some c := by
  unfold rotateIndex
  rcases mv_forth (b := .old) h.forth.2.2.1 (show d.get .cur = some c from hc) with q | q
  · rw [q]; exact .inr ⟨d, a, rfl, hc⟩
  · rw [q]
    dsimp only
    rcases mv_forth (b := .cur) (g := (d.set .old (some c)).set .cur none) (a := .new) (x := i)
      h.forth.2.2.2.1 hn with q | q
    · rw [q]
      dsimp only
      rw [h.back.2.1, mv_back (g := (d.set .old (some c)).set .cur none) (a := .old) (x := c) rfl]
      exact .inr ⟨_, a, rfl, rfl⟩
    · rw [q]
      exact rotateAtt_soft h a rfl rfl

theorem saveIndex_soft {e : Env} (h : Soft e) (rows : List Row) (u : Bool) (fs : Fs)
    (ha : AllG (fun a : Att => a.bad = false ∧ a.unique.getD u = u) fs.att) :
    ∃ fs' b, saveIndex e rows u fs = (fs', .val b) ∧ fs'.ser = fs.ser ∧ fs'.db.cur = fs.db.cur ∧
      (b = true → fs'.db.new = some ⟨rows, false⟩) ∧
      AllG (fun a : Att => a.bad = false ∧ a.unique.getD u = u) fs'.att := by
  unfold saveIndex
  have hc := ha .cur
  have ho := ha .old
  cases hw : e.wDb with
  | noOpen => exact ⟨fs, false, rfl, rfl, rfl, by simp, ha⟩
  | cut k b hh =>
    have := h.wDb k b hh hw
    subst this
    exact ⟨_, false, rfl, rfl, rfl, by simp, ha⟩
  | ok =>
    dsimp only
    unfold saveIndex.saveAtt
    cases hv : e.wAtt with
    | noOpen => exact ⟨_, false, rfl, rfl, rfl, by simp, ha⟩
    | cut k b hh => exact absurd hv (h.wAtt k b hh)
    | ok =>
      refine ⟨_, true, rfl, rfl, rfl, fun _ => rfl, ?_⟩
      intro g a hg
      cases g <;> simp [Gens.get, saveIndex.putDb] at hg hc ho
      · exact hc a hg
      · subst hg; simp
      · exact ho a hg

theorem noDupSerial_append {r : Row} : ∀ {rows : List Row}, noDupSerial rows = true →
    (∀ x ∈ rows, strip x.serial ≠ strip r.serial) → noDupSerial (rows ++ [r]) = true
  | [], _, _ => rfl
  | y :: ys, h, hx => by
    unfold noDupSerial at h
    rw [List.cons_append]
    unfold noDupSerial
    simp at h hx ⊢
    exact ⟨⟨h.1, fun he => hx.1 he.symm⟩, noDupSerial_append h.2 hx.2⟩

theorem noDupName_append {r : Row} : ∀ {rows : List Row}, noDupName rows = true →
    (∀ x ∈ rows, x.type = 86 → x.name ≠ r.name) → noDupName (rows ++ [r]) = true
  | [], _, _ => by unfold noDupName; simp [noDupName]
  | y :: ys, h, hx => by
    unfold noDupName at h
    rw [List.cons_append]
    unfold noDupName
    simp at h hx ⊢
    refine ⟨?_, noDupName_append h.2 hx.2⟩
    rcases h.1 with h1 | h1
    · exact .inl h1
    · by_cases hy : y.type = 86
      · exact .inr ⟨h1, .inr fun he => hx.1 hy he.symm⟩
      · exact .inl hy

theorem rowOk_new (n : Nat) (name : List Nat) : rowOk ⟨86, false, true, hexText n, name⟩ = true := by
  have hl := hexText_length n
  have hh : (hexText n).head? ≠ some 45 := by
    intro h
    exact (mem_hexText (List.mem_of_mem_head? h)).2.2 rfl
  unfold rowOk
  simp only [if_neg hh]
  simp
  exact ⟨⟨hl.2, hl.1⟩, fun x hx => (mem_hexText hx).1⟩

theorem InOrder.load {fs : Fs} {n : Nat} {u : Bool} (h : InOrder fs n u) {cf : Conf}
    (hu : cf.unique = u) {e : Env} (hr : e.readDb = true) :
    ∃ rows, loadIndex cf e fs = some (rows, u) := by
  obtain ⟨rows, h1, h2, h3, h4, h5⟩ := h.index
  have hf : loadIndex.finish rows u = some (rows, u) := by
    unfold loadIndex.finish
    rw [if_pos]
    cases u <;> simp_all
  refine ⟨rows, ?_⟩
  unfold loadIndex
  rw [h1]
  dsimp only
  rw [if_neg (by simp [hr])]
  cases ha : fs.att.cur with
  | none => dsimp only; rw [hu, hf]
  | some a =>
    obtain ⟨h6, h7⟩ := h.attr .cur a ha
    dsimp only
    rw [if_neg (by simp [h6]), hu, h7, hf]

/-- One enrolment, with failures that are noticed and undone, leaves the files in order. -/
theorem InOrder.enroll {lib : Lib} {cf : Conf} {e : Env} {csr : Csr} {fs fs' : Fs} {n : Nat}
    {u : Bool} {o : Out (Option Cert)} (h : InOrder fs n u) (hu : cf.unique = u) (hs : Soft e)
    (he : enroll lib cf e csr fs = (fs', o)) :
    (InOrder fs' n u ∧ ∀ c, o ≠ .val (some c)) ∨ InOrder fs' (n + 1) u := by
  unfold SampleCa.enroll at he
  split at he
  · cases he; exact .inl ⟨h, by simp⟩
  · split at he
    · rename_i rows u' n' hl hn
      rw [h.serial] at hn
      cases hn
      obtain ⟨hdb, hatt, hrow, hdup, hname⟩ := loadIndex_spec hl
      have hu' : u' = u := by
        rcases hatt with ⟨_, q⟩ | ⟨a, ha, q⟩
        · rw [q, hu]
        · rw [q, hu]; exact (h.attr .cur a ha).2
      subst hu'
      obtain ⟨rows0, g1, _, _, _, g5⟩ := h.index
      rw [hdb] at g1
      cases g1
      split at he
      · cases he; exact .inl ⟨h, by simp⟩
      · split at he
        · cases he; exact .inl ⟨h, by simp⟩
        · cases he; exact .inl ⟨h, by simp⟩
        · cases he; exact .inl ⟨h, by simp⟩
        · rename_i cert rows' hct
          obtain ⟨_, _, _, _, _, _, _, _, _, hins⟩ := certify_spec hct
          obtain ⟨hrows, hfr, hnm⟩ := insertRow_spec hins
          split at he
          · cases he; exact .inl ⟨h, by simp⟩
          · -- the serial number is written
            cases hw : e.wSer with
            | cut k b hh => exact absurd hw (hs.wSer k b hh)
            | noOpen =>
              have : saveSerial e (n + 1) fs = (fs, .val false) := by unfold saveSerial; rw [hw]
              rw [this] at he
              cases he; exact .inl ⟨h, by simp⟩
            | ok =>
              have : saveSerial e (n + 1) fs =
                  ({ fs with ser := { fs.ser with new := some (serialText (n + 1)) } }, .val true) := by
                unfold saveSerial; rw [hw]
              rw [this] at he
              dsimp only at he
              obtain ⟨fs2, b, hsi, i1, i2, i3, i4⟩ := saveIndex_soft hs rows' u'
                { fs with ser := { fs.ser with new := some (serialText (n + 1)) } } h.attr
              rw [hsi] at he
              dsimp only at i1 i2
              have hold : InOrder fs2 n u' :=
                ⟨by rw [i1]; exact h.serial, ⟨rows, by rw [i2]; exact hdb, hrow, hdup, hname, g5⟩, i4⟩
              cases b with
              | false => cases he; exact .inl ⟨hold, by simp⟩
              | true =>
                dsimp only at he
                have i3 := i3 rfl
                unfold enroll.publish at he
                split at he
                · cases he; exact .inl ⟨hold, by simp⟩
                · cases hcs : fs.ser.cur with
                  | none => have := h.serial; rw [hcs] at this; cases this
                  | some c =>
                    rcases rotateSerial_soft hs (g := fs2.ser) (c := c) (t := serialText (n + 1))
                      (by rw [i1]; exact hcs) (by rw [i1]) with ⟨g', q, qc⟩ | ⟨g', q, qc⟩
                    · rw [q] at he
                      dsimp only at he
                      have h5 := AllG.rotateIndex (e := e) (d := fs2.db) i4
                      have hser : g'.cur.bind readSerial = some (n + 1) := by
                        rw [qc]; exact readSerial_serialText _
                      rcases rotateIndex_soft hs (d := fs2.db) (c := ⟨rows, false⟩)
                        (i := ⟨rows', false⟩) fs2.att (by rw [i2]; exact hdb) i3 with
                        ⟨d', a', r, rc⟩ | ⟨d', a', r, rc⟩
                      · rw [r] at he h5
                        cases he
                        refine .inr ⟨hser, ⟨rows', rc, ?_, ?_, ?_, ?_⟩, h5⟩
                        · rw [hrows]
                          intro r hr
                          rcases List.mem_append.mp hr with hr | hr
                          · exact hrow r hr
                          · simp at hr; subst hr; exact rowOk_new _ _
                        · rw [hrows]; exact noDupSerial_append hdup hfr
                        · intro hu
                          rw [hrows]; exact noDupName_append (hname hu) (hnm hu)
                        · rw [hrows]
                          intro r hr m hm
                          rcases List.mem_append.mp hr with hr | hr
                          · exact g5 r hr m (by omega)
                          · simp at hr; subst hr
                            intro hx
                            have := strip_hexText hx
                            omega
                      · rw [r] at he h5
                        cases he
                        exact .inr ⟨hser, ⟨rows, rc, hrow, hdup, hname,
                          fun r hr m hm => g5 r hr m (by omega)⟩, h5⟩
                    · rw [q] at he
                      cases he
                      refine .inl ⟨⟨?_, hold.index, i4⟩, by simp⟩
                      show g'.cur.bind readSerial = some n
                      rw [qc, ← hcs]; exact h.serial
    · cases he; exact .inl ⟨h, by simp⟩

/-- C127: failures that are noticed and undone leave the authority working: the files stay in order
and the next serial number never goes back. -/
theorem C127_survives (lib : Lib) (u : Bool) : ∀ (cs : List Call) (fs : Fs) (n : Nat),
    InOrder fs n u → (∀ c ∈ cs, c.cf.unique = u ∧ Soft c.env) →
    ∃ n', n + (run lib fs cs).1.length ≤ n' ∧ n' ≤ n + cs.length ∧
      InOrder (run lib fs cs).2.1 n' u
  | [], fs, n, h, _ => ⟨n, by simp [run], by simp, h⟩
  | c :: cs, fs, n, h, hw => by
    obtain ⟨hu, hs⟩ := hw c (by simp)
    have hcs : ∀ c ∈ cs, c.cf.unique = u ∧ Soft c.env := fun c' hc' => hw c' (by simp [hc'])
    rw [run]
    cases he : SampleCa.enroll lib c.cf c.env c.csr fs with
    | mk fs' o =>
      have hk := h.enroll hu hs he
      cases o with
      | ub =>
        rcases hk with ⟨hk, _⟩ | hk
        · exact ⟨n, by simp, by simp, hk⟩
        · exact ⟨n + 1, by simp, by simp, hk⟩
      | killed =>
        dsimp only
        rcases hk with ⟨hk, _⟩ | hk
        · obtain ⟨n', h1, h2, h3⟩ := C127_survives lib u cs fs' n hk hcs
          exact ⟨n', h1, by simp; omega, h3⟩
        · obtain ⟨n', h1, h2, h3⟩ := C127_survives lib u cs fs' _ hk hcs
          exact ⟨n', by omega, by simp; omega, h3⟩
      | val x =>
        cases x with
        | none =>
          dsimp only
          rcases hk with ⟨hk, _⟩ | hk
          · obtain ⟨n', h1, h2, h3⟩ := C127_survives lib u cs fs' n hk hcs
            exact ⟨n', h1, by simp; omega, h3⟩
          · obtain ⟨n', h1, h2, h3⟩ := C127_survives lib u cs fs' _ hk hcs
            exact ⟨n', by omega, by simp; omega, h3⟩
        | some cert =>
          dsimp only
          rcases hk with ⟨_, hk⟩ | hk
          · exact absurd rfl (hk cert)
          · obtain ⟨n', h1, h2, h3⟩ := C127_survives lib u cs fs' _ hk hcs
            exact ⟨n', by simp; omega, by simp; omega, h3⟩

/-- A request the authority accepts, and nothing that fails. -/
structure Fine (c : Call) : Prop where
  env : c.env = well
  unique : c.cf.unique = false
  csr : c.csr.decodes = true ∧ c.csr.keyOk = true ∧ 0 < c.csr.sig
  entries : ∀ x ∈ c.csr.name, entryOk c.cf x = true
  policy : ∀ l ∈ c.cf.policy, Accepts c.cf.caName c.csr.name l

theorem bytesF_length : ∀ (f n k : Nat), 0 < k → n < 256 ^ k → (bytesF f n).length ≤ k
  | 0, n, k, hk, _ => by simp [bytesF]; omega
  | f + 1, n, k, hk, h => by
    unfold bytesF
    split
    · simp; omega
    · rename_i hn
      cases k with
      | zero => omega
      | succ k =>
        have hk0 : 0 < k := by
          cases k with
          | zero => simp at h; omega
          | succ k => omega
        have : n / 256 < 256 ^ k := by
          rw [Nat.div_lt_iff_lt_mul (by omega)]
          rwa [Nat.pow_succ] at h
        have := bytesF_length f (n / 256) k hk0 this
        simp
        omega

theorem nameFits_of_lt {n : Nat} (h : n < 256 ^ 125) : nameFits n = true := by
  unfold nameFits hexText
  rw [length_flat]
  have := bytesF_length n n 125 (by omega) h
  simp
  omega

theorem well_soft : Soft well :=
  ⟨by simp [well], by simp [well], by simp [well], by simp [well], by simp [well]⟩

theorem InOrder.fine {lib : Lib} {c : Call} {fs : Fs} {n : Nat} (h : InOrder fs n false)
    (hf : Fine c) (hn : n < 256 ^ 125) :
    ∃ fs' cert, SampleCa.enroll lib c.cf c.env c.csr fs = (fs', .val (some cert)) ∧
      cert.serial = n ∧ InOrder fs' (n + 1) false := by
  obtain ⟨rows, hl⟩ := h.load hf.unique (e := c.env) (by rw [hf.env]; rfl)
  obtain ⟨rows0, g1, _, _, _, g5⟩ := h.index
  have hdb := (loadIndex_spec hl).1
  rw [hdb] at g1
  cases g1
  have hsub : ∃ s, subjectOf c.cf c.csr.name = some s := by
    unfold subjectOf
    rw [(policySubject_iff c.cf c.csr.name c.cf.policy [] _).mpr ⟨rfl, hf.policy⟩]
    exact ⟨_, rfl⟩
  obtain ⟨s, hsub⟩ := hsub
  have hno : ¬ (rows.any fun r => strip r.serial == strip (hexText n)) = true := by
    simp
    exact fun r hr => g5 r hr n (Nat.le_refl _)
  have hct : certify lib c.cf c.env c.csr rows false n =
      .val (some (⟨n, c.cf.caName, s, c.csr.key, copyExts c.cf.copy c.cf.exts c.csr.exts⟩,
        rows ++ [⟨86, false, true, hexText n, lib.oneline s⟩])) := by
    unfold certify
    rw [if_neg (by simp [hf.csr.1, hf.csr.2.1]; exact hf.csr.2.2),
      if_neg (by simp; exact hf.entries), hsub]
    dsimp only
    rw [if_neg (by simp), if_neg hno, if_neg (by rw [hf.env]; simp [well])]
    unfold insertRow
    rw [if_neg hno, if_neg (by simp)]
  cases he : SampleCa.enroll lib c.cf c.env c.csr fs with
  | mk fs' o =>
    have hk := h.enroll hf.unique (by rw [hf.env]; exact well_soft) he
    unfold SampleCa.enroll at he
    rw [if_neg (by rw [hf.env]; simp [well]), hl, h.serial] at he
    dsimp only at he
    rw [if_neg (by rw [hf.env]; simp [well]), hct] at he
    dsimp only at he
    rw [if_neg (by rw [hf.env]; simp [well])] at he
    have hss : saveSerial c.env (n + 1) fs =
        ({ fs with ser := { fs.ser with new := some (serialText (n + 1)) } }, .val true) := by
      rw [hf.env]; rfl
    rw [hss] at he
    dsimp only at he
    obtain ⟨fs2, hsi, j1, j2, j3, j4⟩ : ∃ fs2, saveIndex c.env
        (rows ++ [⟨86, false, true, hexText n, lib.oneline s⟩]) false
        { fs with ser := { fs.ser with new := some (serialText (n + 1)) } } = (fs2, .val true) ∧
        fs2.ser = { fs.ser with new := some (serialText (n + 1)) } ∧ fs2.db.cur = fs.db.cur ∧
        fs2.db.new ≠ none ∧ fs2.att.new ≠ none := by
      rw [hf.env]
      exact ⟨_, rfl, rfl, rfl, by simp [saveIndex.putDb], by simp⟩
    rw [hsi] at he
    dsimp only at he
    unfold enroll.publish at he
    rw [if_neg (by simp [nameFits_of_lt hn])] at he
    cases hcs : fs.ser.cur with
    | none => have := h.serial; rw [hcs] at this; cases this
    | some t =>
      have hrs : ∃ g, rotateSerial c.env fs2.ser = (g, .val true) := by
        rw [hf.env, j1]
        simp [rotateSerial, well, mv, Gens.get, Gens.set, hcs]
      obtain ⟨g, hrs⟩ := hrs
      rw [hrs] at he
      dsimp only at he
      have hri : ∃ d a, rotateIndex c.env fs2.db fs2.att = (d, a, .val true) := by
        obtain ⟨i, hi⟩ := Option.ne_none_iff_exists'.mp j3
        obtain ⟨a, ha⟩ := Option.ne_none_iff_exists'.mp j4
        rw [hf.env]
        cases hac : fs2.att.cur <;>
          simp [rotateIndex, rotateAtt, well, mv, Gens.get, Gens.set, j2, hdb, hi, ha, hac]
      obtain ⟨d, a, hri⟩ := hri
      rw [hri] at he
      dsimp only at he
      rw [if_pos (by rw [hf.env]; rfl)] at he
      have he' := Prod.mk.inj he
      rw [← he'.2] at hk ⊢
      rcases hk with ⟨_, hk⟩ | hk
      · exact absurd rfl (hk _)
      · exact ⟨fs', _, rfl, rfl, hk⟩

/-- C127: with files in order and nothing that fails, every acceptable request gets a certificate,
with the next numbers in turn. -/
theorem C127_goes_on (lib : Lib) : ∀ (cs : List Call) (fs : Fs) (n : Nat), InOrder fs n false →
    (∀ c ∈ cs, Fine c) → n + cs.length ≤ 256 ^ 125 →
    (run lib fs cs).1.map Cert.serial = List.range' n cs.length ∧ (run lib fs cs).2.2 = true
  | [], fs, n, _, _, _ => by simp [run]
  | c :: cs, fs, n, h, hf, hn => by
    simp at hn
    obtain ⟨fs', cert, he, hser, hk⟩ := h.fine (lib := lib) (hf c (by simp)) (by omega)
    obtain ⟨h1, h2⟩ := C127_goes_on lib cs fs' (n + 1) hk (fun c' hc' => hf c' (by simp [hc']))
      (by omega)
    rw [run, he]
    dsimp only
    rw [List.map_cons, h1, hser, h2]
    exact ⟨by simp [List.range'], rfl⟩

example : InOrder (filesOf 7) 7 false ∧ Fine ⟨confOf false .supplied, well, csrOf [65]⟩ := by
  refine ⟨⟨readSerial_serialText 7, ⟨[], rfl, by simp, rfl, by simp, by simp⟩, ?_⟩,
    ⟨rfl, rfl, ⟨rfl, rfl, by decide⟩, by decide, ?_⟩⟩
  · intro g a h; cases g <;> simp [filesOf, Gens.get] at h
  · intro l hl
    simp [confOf] at hl
    subst hl
    exact ⟨13, rfl, ⟨13, .utf8, [65]⟩, by simp [csrOf], rfl⟩

/-- An index that cannot be renamed, and is renamed back. -/
example : Soft { well with d2 := .fail } ∧
    (run demo (filesOf 1) [⟨confOf false .supplied, { well with d2 := .fail }, csrOf [65]⟩,
      ⟨confOf false .supplied, well, csrOf [65]⟩]).1.map Cert.serial = [2] := by
  exact ⟨⟨by simp [well], by simp [well], by simp [well], by simp [well], by simp [well]⟩,
    by decide +kernel⟩

/-- Without a serial file no certificate is given out, whatever happens. -/
theorem run_without_serial (lib : Lib) : ∀ (cs : List Call) (fs : Fs), fs.ser.cur = none →
    (run lib fs cs).1 = []
  | [], _, _ => rfl
  | c :: cs, fs, h => by
    have : enroll lib c.cf c.env c.csr fs = (fs, .val none) := by
      unfold enroll
      rw [h]
      split
      · rfl
      · cases loadIndex c.cf c.env fs <;> rfl
    rw [run, this]
    exact run_without_serial lib cs fs h

/-- C127, false of the code: a request that fails can end all later ones.  If the new serial file
cannot be renamed and neither can the old one, or if the process is killed in between, there is no
serial file and nobody puts it back. -/
theorem C127_stuck_false (e : Env) (he : e = { well with s2 := .fail, s3 := .fail } ∨
    e = { well with s2 := .die }) (cs : List Call) :
    (run demo (filesOf 1) (⟨confOf false .supplied, e, csrOf [65]⟩ :: cs)).1 = [] := by
  have : (enroll demo (confOf false .supplied) e (csrOf [65]) (filesOf 1)).1.ser.cur = none ∧
      ∀ c, (enroll demo (confOf false .supplied) e (csrOf [65]) (filesOf 1)).2 ≠ .val (some c) := by
    rcases he with rfl | rfl
    · refine ⟨by decide +kernel, ?_⟩
      rw [show (enroll demo (confOf false .supplied) { well with s2 := .fail, s3 := .fail }
        (csrOf [65]) (filesOf 1)).2 = .val none by decide +kernel]
      simp
    · refine ⟨by decide +kernel, ?_⟩
      rw [show (enroll demo (confOf false .supplied) { well with s2 := .die }
        (csrOf [65]) (filesOf 1)).2 = .killed by decide +kernel]
      simp
  rcases run_cons demo (filesOf 1) ⟨confOf false .supplied, e, csrOf [65]⟩ cs with
    ⟨fs', q, hr⟩ | ⟨fs', o, q, _, hr⟩ | ⟨fs', cert, q, _⟩
  · exact hr
  · rw [hr]
    apply run_without_serial
    have := this.1
    rw [q] at this
    exact this
  · have := this.2 cert
    rw [q] at this
    exact absurd rfl this

end Verif.SampleCa
