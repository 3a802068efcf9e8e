import Verif.DateSpec

/-!
# Theorems about dates in the header Retry-After
-/
namespace Verif.Date
open Verif.ClientResp (numVal isDigit)
open Verif.HttpHdr (Hdr caseEq isSpace)

/-! ## The calendar -/

/-- Years with a day more, up to a year. -/
def leaps (y : Nat) : Nat := y / 4 - y / 100 + y / 400

theorem leaps_succ (y : Nat) : leaps (y + 1) = leaps y + if Leap (y + 1) then 1 else 0 := by
  unfold leaps
  by_cases h : Leap (y + 1)
  · rw [if_pos h]
    unfold Leap at h
    omega
  · rw [if_neg h]
    unfold Leap at h
    omega

theorem monthsLen_12 (y : Nat) : monthsLen y 12 = 365 + if Leap y then 1 else 0 := by
  simp only [monthsLen, monthLen]
  by_cases h : Leap y <;> simp [h]

theorem yearsLen_eq (n : Nat) : yearsLen n + leaps 1969 = 365 * n + leaps (1969 + n) := by
  induction n with
  | zero => simp [yearsLen]
  | succ n ih =>
    have h := leaps_succ (1969 + n)
    rw [yearsLen, monthsLen_12, show 1969 + (n + 1) = 1969 + n + 1 by omega, h, show 1969 + n + 1 = 1970 + n by omega]
    omega

theorem monthsLen_eq (y m : Nat) (h : m < 12) :
    (monthsLen y m : Int) = (cumulative[m]?).getD 0 + if m ≤ 1 then 0 else if Leap y then 1 else 0 := by
  have : m = 0 ∨ m = 1 ∨ m = 2 ∨ m = 3 ∨ m = 4 ∨ m = 5 ∨ m = 6 ∨ m = 7 ∨ m = 8 ∨ m = 9 ∨ m = 10 ∨ m = 11 := by omega
  rcases this with h | h | h | h | h | h | h | h | h | h | h | h <;> subst h <;>
    by_cases hl : Leap y <;> simp [monthsLen, monthLen, hl, cumulative]

/-- `my_timegm` counts the seconds of the calendar. -/
theorem C134_calendar (c : Civil) (h1 : 1970 ≤ c.year) (h2 : c.mon < 12) (h3 : 1 ≤ c.mday) :
    timegm c.sec c.min c.hour c.mday c.mon ((c.year : Int) - 1900) = c.unix := by
  unfold timegm Civil.unix Civil.days
  have hy := yearsLen_eq (c.year - 1970)
  have hm := monthsLen_eq c.year c.mon h2
  have hs := leaps_succ (c.year - 1)
  rw [show c.year - 1 + 1 = c.year by omega] at hs
  rw [show 1969 + (c.year - 1970) = c.year - 1 by omega] at hy
  rw [if_neg (by omega), if_neg (by omega), if_neg (by omega)]
  dsimp only
  rw [show ((c.mon : Int)).toNat = c.mon from by simp]
  generalize (cumulative[c.mon]?).getD 0 = k at *
  generalize monthsLen c.year c.mon = ml at *
  generalize yearsLen (c.year - 1970) = yl at *
  have key : ((c.year : Int) - 1900 + 1900 - 1970) * 365 +
      (((c.year : Int) - 1900 + 1900 - (if (c.mon : Int) ≤ 1 then 1 else 0)) / 4 -
        ((c.year : Int) - 1900 + 1900 - (if (c.mon : Int) ≤ 1 then 1 else 0)) / 100 +
        ((c.year : Int) - 1900 + 1900 - (if (c.mon : Int) ≤ 1 then 1 else 0)) / 400 - 1969 / 4 + 1969 / 100 - 1969 / 400) + k +
      c.mday - 1 = ((yl + ml + (c.mday - 1) : Nat) : Int) := by
    have i1 : ((c.year : Int) - 1900 + 1900 - 1) = ((c.year - 1 : Nat) : Int) := by omega
    have i2 : ((c.year : Int) - 1900 + 1900 - 0) = ((c.year : Nat) : Int) := by omega
    have q : ∀ n : Nat, (n : Int) / 4 - (n : Int) / 100 + (n : Int) / 400 - 1969 / 4 + 1969 / 100 - 1969 / 400 = (leaps n : Int) - leaps 1969 := by
      intro n
      unfold leaps
      omega
    by_cases hq : c.mon ≤ 1
    · rw [if_pos hq] at hm
      rw [if_pos (by omega), i1, q]
      omega
    · rw [if_neg hq] at hm
      rw [if_neg (by omega), i2, q]
      by_cases hl : Leap c.year
      · rw [if_pos hl] at hm hs
        omega
      · rw [if_neg hl] at hm hs
        omega
  rw [key]
  omega

/-! ## Single steps -/

theorem numVal_d2 (n : Nat) (h : n < 100) : numVal (d2 n) = n := by
  simp only [numVal, d2, List.foldl_cons, List.foldl_nil]
  omega

theorem numVal_d1 (n : Nat) : numVal (d1 n) = n := by
  simp only [numVal, d1, List.foldl_cons, List.foldl_nil]
  omega

theorem numVal_d4 (n : Nat) (h : n < 10000) : numVal (d4 n) = n := by
  simp only [numVal, d4, List.foldl_cons, List.foldl_nil]
  omega

theorem digit_of (n : Nat) (h : n < 10) : isDigit (48 + n) = true := by
  simp [isDigit]
  omega

theorem d2_digits (n : Nat) (h : n < 100) : ∀ c ∈ d2 n, isDigit c = true := by
  intro c hc
  simp only [d2, List.mem_cons, List.not_mem_nil, or_false] at hc
  rcases hc with rfl | rfl <;> exact digit_of _ (by omega)

theorem d4_digits (n : Nat) (h : n < 10000) : ∀ c ∈ d4 n, isDigit c = true := by
  intro c hc
  simp only [d4, List.mem_cons, List.not_mem_nil, or_false] at hc
  rcases hc with rfl | rfl | rfl | rfl <;> exact digit_of _ (by omega)

/-- Not a byte of which names or numbers are made. -/
def Sep (ws : List Nat) : Prop := ∀ c ∈ ws, isAlnum c = false

theorem skip_sep (ws : List Nat) (c : Nat) (r : List Nat) (p : Option Nat) (hw : Sep ws) (hc : isAlnum c = true) :
    skip p (ws ++ c :: r) = ((ws.getLast?).or p, c :: r) := by
  induction ws generalizing p with
  | nil => simp [skip, hc]
  | cons x ws ih =>
    rw [List.cons_append, skip, if_neg (by rw [hw x (by simp)]; simp), ih _ (fun c h => hw c (by simp [h]))]
    cases ws with
    | nil => simp
    | cons y ws => simp [List.getLast?_cons]

theorem takeWhile_app {α : Type} (f : α → Bool) (l r : List α) (hl : ∀ c ∈ l, f c = true) (hr : ∀ c ∈ r.head?, f c = false) :
    (l ++ r).takeWhile f = l := by
  induction l with
  | nil =>
    cases r with
    | nil => rfl
    | cons c r => simp [hr c (by simp)]
  | cons x l ih => simp [hl x (by simp), ih (fun c h => hl c (by simp [h]))]

theorem dropWhile_digit (c : Nat) (r : List Nat) (h : isDigit c = true) : (c :: r).dropWhile isSpace = c :: r := by
  have : isSpace c = false := by
    simp [isSpace, isDigit] at *
    omega
  simp [this]

theorem advance_app (s : St) (w r : List Nat) (hs : s.rest = w ++ r) : ∃ p, advance w.length s = .ok { s with prev := p, rest := r } := by
  refine ⟨if w.length = 0 then s.prev else (w ++ r)[w.length - 1]?, ?_⟩
  unfold advance
  rw [hs, if_pos (by simp), List.drop_left]

theorem step_digit (s : St) (p : Option Nat) (c : Nat) (q : List Nat) (hs : skip s.prev s.rest = (p, c :: q)) (hc : isAlpha c = false) :
    step s = if s.sec = -1 then
        let t := scanTime (c :: q) s.hour s.min s.sec
        if t.1 = 3 then advance 8 { s with prev := p, rest := c :: q, hour := t.2.1, min := t.2.2.1, sec := t.2.2.2 }
        else if t.1 = 2 then advance 5 { s with prev := p, rest := c :: q, hour := t.2.1, min := t.2.2.1, sec := 0 }
        else digits { s with prev := p, rest := c :: q, hour := t.2.1, min := t.2.2.1 }
      else digits { s with prev := p, rest := c :: q } := by
  unfold step
  rw [hs]
  dsimp only
  rw [if_neg (by simp [hc])]

/-- A word is taken for what `name` says. -/
theorem step_name (s : St) (ws w r : List Nat) (hs : s.rest = ws ++ (w ++ r)) (hw : Sep ws) (hn : w ≠ []) (hl : w.length ≤ 31)
    (ha : ∀ c ∈ w, isAlpha c = true) (hr : ∀ c ∈ r.head?, isAlpha c = false) (s' : St)
    (h : ∀ p, name w { s with prev := p, rest := w ++ r } = some { s' with prev := p, rest := w ++ r }) :
    ∃ p, step s = .ok { s' with prev := p, rest := r } := by
  cases w with
  | nil => exact absurd rfl hn
  | cons c w =>
    have hc := ha c (by simp)
    unfold step
    rw [hs, List.cons_append, skip_sep ws c (w ++ r) s.prev hw (by simp [isAlnum, hc])]
    dsimp only
    rw [if_pos hc]
    have hword : word (c :: (w ++ r)) = c :: w := by
      unfold word
      rw [← List.cons_append, takeWhile_app isAlpha (c :: w) r ha hr, List.take_of_length_le (by simpa using hl)]
    rw [hword]
    rw [← List.cons_append, h]
    dsimp only
    rw [List.cons_append, hword]
    obtain ⟨p, hp⟩ := advance_app { s' with prev := (ws.getLast?).or s.prev, rest := c :: (w ++ r) } (c :: w) r rfl
    exact ⟨p, hp⟩

theorem scan2_two (a b : Nat) (r : List Nat) (ha : isDigit a = true) (hb : isDigit b = true) :
    scan2 (a :: b :: r) = some ((numVal [a, b] : Int), r) := by
  unfold scan2
  rw [dropWhile_digit a _ ha]
  have : a ≠ 45 ∧ a ≠ 43 := by
    simp [isDigit] at ha
    omega
  split
  · rename_i h; cases h; exact absurd rfl this.1
  · rename_i h; cases h; exact absurd rfl this.2
  · simp [ha, hb]

theorem scan2_one (a b : Nat) (r : List Nat) (ha : isDigit a = true) (hb : isDigit b = false) :
    scan2 (a :: b :: r) = some ((numVal [a] : Int), b :: r) := by
  unfold scan2
  rw [dropWhile_digit a _ ha]
  have : a ≠ 45 ∧ a ≠ 43 := by
    simp [isDigit] at ha
    omega
  split
  · rename_i h; cases h; exact absurd rfl this.1
  · rename_i h; cases h; exact absurd rfl this.2
  · simp [ha, hb]

theorem scan2_end (a : Nat) (ha : isDigit a = true) : scan2 [a] = some ((numVal [a] : Int), []) := by
  unfold scan2
  rw [dropWhile_digit a _ ha]
  have : a ≠ 45 ∧ a ≠ 43 := by
    simp [isDigit] at ha
    omega
  split
  · rename_i h; cases h; exact absurd rfl this.1
  · rename_i h; cases h; exact absurd rfl this.2
  · simp [ha]

/-- A number that is not followed by a colon, or has more than two digits, is no time. -/
theorem scanTime_num (ds r : List Nat) (hd : ∀ c ∈ ds, isDigit c = true) (hn : ds ≠ []) (hr : ∀ c ∈ r.head?, isDigit c = false)
    (hc : r.head? ≠ some 58) (h m x : Int) : ∃ h', scanTime (ds ++ r) h m x = (1, h', m, x) := by
  have nocolon : ∀ q : List Nat, q.head? ≠ some 58 → colon q = none := by
    intro q hq
    unfold colon
    split
    · exact absurd rfl hq
    · rfl
  have one : ∀ v q, scan2 (ds ++ r) = some (v, q) → q.head? ≠ some 58 → ∃ h', scanTime (ds ++ r) h m x = (1, h', m, x) := by
    intro v q h1 h2
    unfold scanTime
    rw [h1]
    dsimp only
    rw [nocolon q h2]
    exact ⟨v, rfl⟩
  cases ds with
  | nil => exact absurd rfl hn
  | cons a ds =>
    have ha := hd a (by simp)
    cases ds with
    | nil =>
      cases r with
      | nil => exact one _ _ (scan2_end a ha) (by simp)
      | cons b r => exact one _ _ (scan2_one a b r ha (hr b (by simp))) hc
    | cons b ds =>
      refine one _ _ (scan2_two a b (ds ++ r) ha (hd b (by simp))) ?_
      cases ds with
      | nil => exact hc
      | cons d ds =>
        have := hd d (by simp)
        simp only [List.cons_append, List.head?_cons, ne_eq, Option.some.injEq]
        rintro rfl
        simp [isDigit] at this

/-- A number is taken for what `number` says. -/
theorem step_num (s : St) (ws ds r : List Nat) (hs : s.rest = ws ++ (ds ++ r)) (hw : Sep ws) (hwn : ws ≠ []) (hn : ds ≠ [])
    (hd : ∀ c ∈ ds, isDigit c = true) (hv : numVal ds ≤ 2147483647)
    (hr : ∀ c ∈ r.head?, isDigit c = false) (hc : r.head? ≠ some 58) (s' : St)
    (h : ∀ h', number (numVal ds) ds.length { s with prev := ws.getLast?, rest := ds ++ r, hour := h' } =
      some { s' with prev := ws.getLast?, rest := ds ++ r, hour := h' }) :
    ∃ p h', step s = .ok { s' with prev := p, rest := r, hour := h' } := by
  have fin : ∀ h', ∃ p, digits { s with prev := ws.getLast?, rest := ds ++ r, hour := h' } = .ok { s' with prev := p, rest := r, hour := h' } := by
    intro h'
    unfold digits
    dsimp only
    rw [takeWhile_app isDigit ds r hd hr, if_neg (by omega), h h']
    dsimp only
    exact advance_app _ ds r rfl
  cases hds : ds with
  | nil => exact absurd hds hn
  | cons c ds' =>
    have hcd := hd c (by simp [hds])
    have hca : isAlpha c = false := by
      simp [isAlpha, isDigit] at *
      omega
    have hsk : skip s.prev s.rest = (ws.getLast?, ds ++ r) := by
      rw [hs, hds, List.cons_append, skip_sep ws c _ s.prev hw (by simp [isAlnum, hcd])]
      cases ws with
      | nil => exact absurd rfl hwn
      | cons x ws => simp [List.getLast?_cons]
    rw [hds, List.cons_append] at hsk
    rw [step_digit s _ c _ hsk hca, ← List.cons_append, ← hds]
    by_cases h1 : s.sec = -1
    · rw [if_pos h1]
      obtain ⟨h', ht⟩ := scanTime_num ds r hd hn hr hc s.hour s.min s.sec
      rw [ht]
      dsimp only
      rw [if_neg (by decide), if_neg (by decide)]
      obtain ⟨p, hp⟩ := fin h'
      exact ⟨p, h', hp⟩
    · rw [if_neg h1]
      obtain ⟨p, hp⟩ := fin s.hour
      exact ⟨p, s.hour, hp⟩

/-- The same after a time. -/
theorem step_num2 (s : St) (ws ds r : List Nat) (hs : s.rest = ws ++ (ds ++ r)) (hw : Sep ws) (hwn : ws ≠ []) (hn : ds ≠ [])
    (hd : ∀ c ∈ ds, isDigit c = true) (hv : numVal ds ≤ 2147483647)
    (hr : ∀ c ∈ r.head?, isDigit c = false) (hsec : s.sec ≠ -1) (s' : St)
    (h : number (numVal ds) ds.length { s with prev := ws.getLast?, rest := ds ++ r } = some { s' with prev := ws.getLast?, rest := ds ++ r }) :
    ∃ p, step s = .ok { s' with prev := p, rest := r } := by
  have fin : ∃ p, digits { s with prev := ws.getLast?, rest := ds ++ r } = .ok { s' with prev := p, rest := r } := by
    unfold digits
    dsimp only
    rw [takeWhile_app isDigit ds r hd hr, if_neg (by omega), h]
    dsimp only
    exact advance_app _ ds r rfl
  cases hds : ds with
  | nil => exact absurd hds hn
  | cons c ds' =>
    have hcd := hd c (by simp [hds])
    have hca : isAlpha c = false := by
      simp [isAlpha, isDigit] at *
      omega
    have hsk : skip s.prev s.rest = (ws.getLast?, ds ++ r) := by
      rw [hs, hds, List.cons_append, skip_sep ws c _ s.prev hw (by simp [isAlnum, hcd])]
      cases ws with
      | nil => exact absurd rfl hwn
      | cons x ws => simp [List.getLast?_cons]
    rw [hds, List.cons_append] at hsk
    rw [step_digit s _ c _ hsk hca, ← List.cons_append, ← hds, if_neg hsec]
    exact fin

/-- A time is taken for the time. -/
theorem step_clock (s : St) (c : Civil) (ws r : List Nat) (hs : s.rest = ws ++ (c.clock ++ r)) (hw : Sep ws) (h1 : c.hour < 24) (h2 : c.min < 60)
    (h3 : c.sec ≤ 60) (hsec : s.sec = -1) :
    ∃ p, step s = .ok { s with prev := p, rest := r, hour := c.hour, min := c.min, sec := c.sec } := by
  have e : c.clock ++ r = (48 + c.hour / 10) :: (48 + c.hour % 10) :: 58 :: (48 + c.min / 10) :: (48 + c.min % 10) :: 58 ::
      (48 + c.sec / 10) :: (48 + c.sec % 10) :: r := by simp [Civil.clock, d2]
  have dd : ∀ n, n < 100 → isDigit (48 + n / 10) = true ∧ isDigit (48 + n % 10) = true ∧ numVal [48 + n / 10, 48 + n % 10] = n :=
    fun n hn => ⟨digit_of _ (by omega), digit_of _ (by omega), numVal_d2 n hn⟩
  obtain ⟨a1, a2, a3⟩ := dd c.hour (by omega)
  obtain ⟨b1, b2, b3⟩ := dd c.min (by omega)
  obtain ⟨e1, e2, e3⟩ := dd c.sec (by omega)
  have hca : isAlpha (48 + c.hour / 10) = false := by
    simp [isAlpha]
    omega
  have ht : scanTime ((48 + c.hour / 10) :: (48 + c.hour % 10) :: 58 :: (48 + c.min / 10) :: (48 + c.min % 10) :: 58 ::
      (48 + c.sec / 10) :: (48 + c.sec % 10) :: r) s.hour s.min s.sec = (3, (c.hour : Int), (c.min : Int), (c.sec : Int)) := by
    unfold scanTime
    rw [scan2_two _ _ _ a1 a2]
    dsimp only
    rw [show ∀ q, (colon (58 :: q)).bind scan2 = scan2 q from fun q => rfl, scan2_two _ _ _ b1 b2]
    dsimp only
    rw [show ∀ q, (colon (58 :: q)).bind scan2 = scan2 q from fun q => rfl, scan2_two _ _ _ e1 e2, a3, b3, e3]
  rw [step_digit s _ _ _ (by rw [hs, e, skip_sep ws _ _ s.prev hw (by simp [isAlnum, a1])]) hca, if_pos hsec, ht]
  dsimp only
  rw [if_pos rfl]
  exact advance_app { s with prev := (ws.getLast?).or s.prev, rest := _, hour := c.hour, min := c.min, sec := c.sec }
    [48 + c.hour / 10, 48 + c.hour % 10, 58, 48 + c.min / 10, 48 + c.min % 10, 58, 48 + c.sec / 10, 48 + c.sec % 10] r rfl

theorem loop_step (k : Nat) (s s' : St) (hr : s.rest ≠ []) (h : step s = .ok s') : loop (k + 1) s = loop k s' := by
  rw [loop, if_neg hr, h]

theorem monthLen_le (y m : Nat) : monthLen y m ≤ 31 := by
  unfold monthLen
  split
  · split <;> omega
  · split <;> omega

/-- What follows when all is found. -/
theorem finish_found (narrow : Bool) (c : Civil) (hv : c.Valid) (hn : narrow = true → c.year ≤ 2037) (s : St) (h1 : s.mday = c.mday) (h2 : s.mon = c.mon)
    (h3 : s.year = c.year) (h4 : s.hour = c.hour) (h5 : s.min = c.min) (h6 : s.sec = c.sec) :
    finish narrow s = if (c.unix : Int) % 4294967296 = 4294967295 then .ok c.unix else .ok (c.unix + if s.tz ≠ -1 then s.tz else 0) := by
  obtain ⟨v1, v2, v3, v4, v5, v6, v7⟩ := hv
  have := monthLen_le c.year c.mon
  have hsec : ¬ s.sec = -1 := by omega
  have q1 : ¬ (s.mday = -1 ∨ s.mon = -1 ∨ s.year = -1) := by omega
  have q2 : ¬ (narrow = true ∧ s.year > 2037) := by
    rintro ⟨a, b⟩
    have := hn a
    omega
  have q3 : ¬ s.year < 1970 := by omega
  have q4 : ¬ (s.mday > 31 ∨ s.mon > 11 ∨ s.hour > 23 ∨ s.min > 59 ∨ s.sec > 60) := by omega
  unfold finish
  simp only [if_neg hsec, if_neg q1, if_neg q2, if_neg q3, if_neg q4]
  rw [h1, h2, h3, h4, h5, h6, C134_calendar c v1 v2 v3]

theorem day_name (w : Nat) (h : w < 7) : (dayName w ≠ [] ∧ (dayName w).length ≤ 31 ∧ (∀ c ∈ dayName w, isAlpha c = true)) ∧ checkday (dayName w) = w := by
  have : w = 0 ∨ w = 1 ∨ w = 2 ∨ w = 3 ∨ w = 4 ∨ w = 5 ∨ w = 6 := by omega
  rcases this with h | h | h | h | h | h | h <;> subst h <;> decide +kernel

theorem day_long (w : Nat) (h : w < 7) : (dayLong w ≠ [] ∧ (dayLong w).length ≤ 31 ∧ (∀ c ∈ dayLong w, isAlpha c = true)) ∧ checkday (dayLong w) = w := by
  have : w = 0 ∨ w = 1 ∨ w = 2 ∨ w = 3 ∨ w = 4 ∨ w = 5 ∨ w = 6 := by omega
  rcases this with h | h | h | h | h | h | h <;> subst h <;> decide +kernel

theorem month_name (m : Nat) (h : m < 12) :
    (monthName m ≠ [] ∧ (monthName m).length ≤ 31 ∧ (∀ c ∈ monthName m, isAlpha c = true)) ∧ checkmonth (monthName m) = m := by
  have : m = 0 ∨ m = 1 ∨ m = 2 ∨ m = 3 ∨ m = 4 ∨ m = 5 ∨ m = 6 ∨ m = 7 ∨ m = 8 ∨ m = 9 ∨ m = 10 ∨ m = 11 := by omega
  rcases this with h | h | h | h | h | h | h | h | h | h | h | h <;> subst h <;> decide +kernel

/-- A day of the week at the start. -/
theorem step_day (s : St) (w : Nat) (d r : List Nat) (hd : (d ≠ [] ∧ d.length ≤ 31 ∧ (∀ c ∈ d, isAlpha c = true)) ∧ checkday d = w)
    (hs : s.rest = d ++ r) (hw : s.wday = -1) (hr : ∀ c ∈ r.head?, isAlpha c = false) :
    ∃ p, step s = .ok { s with prev := p, rest := r, wday := w } := by
  refine step_name s [] d r hs (by simp [Sep]) hd.1.1 hd.1.2.1 hd.1.2.2 hr { s with wday := w } ?_
  intro p
  unfold name
  rw [if_pos (by dsimp only; rw [hd.2]; omega), hd.2]

/-- A month. -/
theorem step_month (s : St) (m : Nat) (ws r : List Nat) (hm : m < 12) (hs : s.rest = ws ++ (monthName m ++ r)) (hws : Sep ws) (hw : s.wday ≠ -1)
    (hm1 : s.mon = -1) (hr : ∀ c ∈ r.head?, isAlpha c = false) :
    ∃ p, step s = .ok { s with prev := p, rest := r, mon := m } := by
  have h := month_name m hm
  refine step_name s ws _ r hs hws h.1.1 h.1.2.1 h.1.2.2 hr { s with mon := m } ?_
  intro p
  unfold name
  rw [if_neg (by dsimp only; exact fun a => hw a.1), if_pos (by dsimp only; rw [h.2]; omega), h.2]

/-- Greenwich. -/
theorem step_gmt (s : St) (ws : List Nat) (hs : s.rest = ws ++ ([71, 77, 84] ++ [])) (hws : Sep ws) (hw : s.wday ≠ -1)
    (hm1 : s.mon ≠ -1) (ht : s.tz = -1) :
    ∃ p, step s = .ok { s with prev := p, rest := [], tz := 0 } := by
  refine step_name s ws _ [] hs hws (by decide) (by decide) (by decide) (by simp) { s with tz := 0 } ?_
  intro p
  have : checktz [71, 77, 84] = 0 := by decide +kernel
  unfold name
  rw [if_neg (by dsimp only; exact fun a => hw a.1), if_neg (by dsimp only; exact fun a => hm1 a.1), if_pos (by dsimp only; rw [this]; omega), this]

/-- The day of the month. -/
theorem step_mday (s : St) (n : Nat) (ws ds r : List Nat) (hs : s.rest = ws ++ (ds ++ r)) (hws : Sep ws) (hwn : ws ≠ []) (h0 : 1 ≤ n) (h1 : n ≤ 31)
    (hv : numVal ds = n) (hl : ds.length = 1 ∨ ds.length = 2) (hds : ∀ c ∈ ds, isDigit c = true) (hd : s.dig = .mday) (hm : s.mday = -1)
    (hr : ∀ c ∈ r.head?, isDigit c = false) (hc : r.head? ≠ some 58) :
    ∃ p h', step s = .ok { s with prev := p, rest := r, hour := h', mday := n, dig := .year } := by
  refine step_num s ws ds r hs hws hwn (by rintro rfl; simp at hl) hds (by omega) hr hc { s with mday := n, dig := .year } ?_
  intro h'
  unfold number
  rw [if_neg (by omega), if_neg (by omega)]
  dsimp only
  rw [if_pos ⟨hd, hm⟩, hv, if_pos (by omega)]

/-- The year. -/
theorem step_year (s : St) (n : Nat) (ws ds r : List Nat) (hs : s.rest = ws ++ (ds ++ r)) (hws : Sep ws) (hwn : ws ≠ [])
    (hl : ds.length = 2 ∨ ds.length = 4 ∧ numVal ds > 1400) (hds : ∀ c ∈ ds, isDigit c = true) (hd : s.dig = .year) (hm : s.mday ≠ -1)
    (hy : s.year = -1) (hv : numVal ds ≤ 9999)
    (hn : (n : Int) = if (numVal ds : Int) < 1900 then (if (numVal ds : Int) > 70 then (numVal ds : Int) + 1900 else (numVal ds : Int) + 2000) else (numVal ds : Int))
    (hr : ∀ c ∈ r.head?, isDigit c = false) (hc : r.head? ≠ some 58) :
    ∃ p h', step s = .ok { s with prev := p, rest := r, hour := h', year := n } := by
  refine step_num s ws ds r hs hws hwn (by rintro rfl; simp at hl) hds (by omega) hr hc { s with year := n } ?_
  intro h'
  unfold number
  rw [if_neg (by omega), if_neg (by omega)]
  dsimp only
  rw [if_neg (by rw [hd]; simp)]
  unfold yearPart
  dsimp only
  rw [if_pos ⟨hd, hy⟩, if_neg hm, hn]

/-- The year after a time. -/
theorem step_year2 (s : St) (n : Nat) (ws r : List Nat) (hs : s.rest = ws ++ (d4 n ++ r)) (hws : Sep ws) (hwn : ws ≠ []) (h1 : 1900 ≤ n) (h2 : n ≤ 9999)
    (hd : s.dig = .year) (hm : s.mday ≠ -1) (hy : s.year = -1) (hsec : s.sec ≠ -1) (hr : ∀ c ∈ r.head?, isDigit c = false) :
    ∃ p, step s = .ok { s with prev := p, rest := r, year := n } := by
  have hv := numVal_d4 n (by omega)
  refine step_num2 s ws (d4 n) r hs hws hwn (by simp [d4]) (d4_digits _ (by omega)) (by omega) hr hsec { s with year := n } ?_
  unfold number
  rw [if_neg (by omega), if_neg (by simp [d4])]
  dsimp only
  rw [if_neg (by rw [hd]; simp)]
  unfold yearPart
  dsimp only
  rw [if_pos ⟨hd, hy⟩, if_neg hm, hv, if_neg (by omega)]

theorem sep_dec (ws : List Nat) (h : ∀ c ∈ ws, isAlnum c = false) : Sep ws := h

theorem no_digit (c : Nat) (r : List Nat) (h : isDigit c = false) : ∀ x ∈ (c :: r).head?, isDigit x = false := by
  intro x hx
  simp at hx
  subst hx
  exact h

theorem no_alpha (c : Nat) (r : List Nat) (h : isAlpha c = false) : ∀ x ∈ (c :: r).head?, isAlpha x = false := by
  intro x hx
  simp at hx
  subst hx
  exact h

/-- A step of the loop, seen from outside. -/
theorem loop_to (k : Nat) (s : St) (f : Option Nat → St) (hr : s.rest ≠ []) (h : ∃ p, step s = .ok (f p)) :
    ∃ t, loop (k + 1) s = loop k t ∧ ∃ p, t = f p := by
  obtain ⟨p, h⟩ := h
  exact ⟨_, loop_step k s _ hr h, p, rfl⟩

theorem loop_to' (k : Nat) (s : St) (f : Option Nat → Int → St) (hr : s.rest ≠ []) (h : ∃ p h', step s = .ok (f p h')) :
    ∃ t, loop (k + 1) s = loop k t ∧ ∃ p h', t = f p h' := by
  obtain ⟨p, h', h⟩ := h
  exact ⟨_, loop_step k s _ hr h, p, h', rfl⟩

theorem ne_of_cons (c : Nat) (r : List Nat) (l : List Nat) (h : l = c :: r) : l ≠ [] := by
  rw [h]
  simp

theorem ne_of_app (a b l : List Nat) (h : l = a ++ b) (ha : a ≠ []) : l ≠ [] := by
  rw [h]
  simp [ha]

/-- The first five parts of a date as in RFC 1123. -/
theorem rfc1123_five (c : Civil) (w : Nat) (zone : List Nat) (hv : c.Valid) (hy : c.year ≤ 9999) (hw : w < 7) :
    ∃ s : St, loop 6 { rest := c.rfc1123 w zone } = loop 1 s ∧ s.rest = [32] ++ zone ∧ s.wday = w ∧ s.mon = c.mon ∧ s.mday = c.mday ∧
      s.year = c.year ∧ s.hour = c.hour ∧ s.min = c.min ∧ s.sec = c.sec ∧ s.tz = -1 ∧ s.dig = .year := by
  obtain ⟨v1, v2, v3, v4, v5, v6, v7⟩ := hv
  have hml := monthLen_le c.year c.mon
  have hd := day_name w hw
  obtain ⟨s1, l1, p1, a1⟩ := loop_to 5 { rest := c.rfc1123 w zone } _ (ne_of_app _ _ _ rfl hd.1.1)
    (step_day _ w (dayName w) _ hd rfl rfl (no_alpha 44 _ (by decide)))
  have r1 := congrArg St.rest a1
  dsimp only at r1
  obtain ⟨s2, l2, p2, h2, a2⟩ := loop_to' 4 s1 _ (ne_of_cons _ _ _ r1)
    (step_mday s1 c.mday [44, 32] (d2 c.mday) _ r1 (sep_dec _ (by decide)) (by decide) v3 (by omega) (numVal_d2 _ (by omega)) (.inr rfl)
      (d2_digits _ (by omega)) (by simp [a1]) (by simp [a1]) (no_digit 32 _ (by decide)) (by simp))
  have r2 := congrArg St.rest a2
  dsimp only at r2
  obtain ⟨s3, l3, p3, a3⟩ := loop_to 3 s2 _ (ne_of_cons _ _ _ r2)
    (step_month s2 c.mon [32] _ v2 r2 (sep_dec _ (by decide)) (by simp [a1, a2]) (by simp [a1, a2]) (no_alpha 32 _ (by decide)))
  have r3 := congrArg St.rest a3
  dsimp only at r3
  obtain ⟨s4, l4, p4, h4, a4⟩ := loop_to' 2 s3 _ (ne_of_cons _ _ _ r3)
    (step_year s3 c.year [32] (d4 c.year) _ r3 (sep_dec _ (by decide)) (by decide) (.inr ⟨rfl, by rw [numVal_d4 _ (by omega)]; omega⟩) (d4_digits _ (by omega))
      (by simp [a2, a3]) (by simp [a2, a3]) (by simp [a1, a2, a3]) (by rw [numVal_d4 _ (by omega)]; omega)
      (by rw [numVal_d4 _ (by omega), if_neg (by omega)]) (no_digit 32 _ (by decide)) (by simp))
  have r4 := congrArg St.rest a4
  dsimp only at r4
  obtain ⟨s5, l5, p5, a5⟩ := loop_to 1 s4 _ (ne_of_cons _ _ _ r4)
    (step_clock s4 c [32] _ r4 (sep_dec _ (by decide)) v5 v6 v7 (by simp [a1, a2, a3, a4]))
  have r5 := congrArg St.rest a5
  dsimp only at r5
  refine ⟨s5, by rw [l1, l2, l3, l4, l5], r5, ?_⟩
  simp [a1, a2, a3, a4, a5]

/-! ## The three ways of writing a date -/

/-- A date written as in RFC 1123 is understood; `narrow` is that years after 2037 are too much. -/
theorem C134_rfc1123 (narrow : Bool) (c : Civil) (w : Nat) (hv : c.Valid) (hy : c.year ≤ 9999) (hn : narrow = true → c.year ≤ 2037) (hw : w < 7) :
    parsedate narrow (c.rfc1123 w [71, 77, 84]) = .ok c.unix := by
  obtain ⟨s, l, r, a⟩ := rfc1123_five c w [71, 77, 84] hv hy hw
  obtain ⟨s6, l6, p6, a6⟩ := loop_to 0 s _ (ne_of_cons _ _ _ r)
    (step_gmt s [32] r (sep_dec _ (by decide)) (by simp [a]) (by simp [a]) (by simp [a]))
  unfold parsedate
  rw [l, l6]
  dsimp only [loop]
  rw [finish_found narrow c hv hn s6 (by simp [a, a6]) (by simp [a, a6]) (by simp [a, a6]) (by simp [a, a6]) (by simp [a, a6]) (by simp [a, a6]),
    a6]
  simp

/-- With an offset in the place of the zone, this is subtracted; except at the one second at which the time is
-1 when cut to 32 bits. -/
theorem C134_offset_partial (narrow : Bool) (c : Civil) (w : Nat) (east : Bool) (hours mins : Nat) (hv : c.Valid) (hy : c.year ≤ 9999)
    (hn : narrow = true → c.year ≤ 2037) (hw : w < 7) (hm : mins < 60) (hh : hours * 100 + mins ≤ 1400) (ht : c.unix % 4294967296 ≠ 4294967295) :
    parsedate narrow (c.rfc1123 w (offsetText east hours mins)) = .ok (c.unix - offsetSec east hours mins) := by
  obtain ⟨s, l, r, a⟩ := rfc1123_five c w (offsetText east hours mins) hv hy hw
  have hval : numVal (d4 (hours * 100 + mins)) = hours * 100 + mins := numVal_d4 _ (by omega)
  have hmem : ∀ x ∈ ([32, if east then 43 else 45] : List Nat), isAlnum x = false := by cases east <;> decide
  have hstep : ∃ p, step s = .ok { s with prev := p, rest := [], tz := - offsetSec east hours mins } := by
    refine step_num2 s [32, if east then 43 else 45] (d4 (hours * 100 + mins)) [] (by rw [r]; simp [offsetText]) hmem (by simp) (by simp [d4])
      (d4_digits _ (by omega)) (by omega) (by simp) (by simp [a]) { s with tz := - offsetSec east hours mins } ?_
    unfold number
    have hp : ([32, if east then 43 else 45] : List Nat).getLast? = some (if east then 43 else 45) := by simp
    rw [hp]
    dsimp only
    rw [if_pos ⟨by simp [a], rfl, by omega, by cases east <;> simp⟩, hval]
    unfold offsetSec
    cases east
    · simp
      omega
    · simp
      omega
  obtain ⟨s6, l6, p6, a6⟩ := loop_to 0 s _ (ne_of_cons _ _ _ r) hstep
  unfold parsedate
  rw [l, l6]
  dsimp only [loop]
  rw [finish_found narrow c hv hn s6 (by simp [a, a6]) (by simp [a, a6]) (by simp [a, a6]) (by simp [a, a6]) (by simp [a, a6]) (by simp [a, a6]),
    a6, if_neg (by omega)]
  have : - offsetSec east hours mins ≠ -1 := by
    unfold offsetSec
    cases east <;> simp <;> omega
  dsimp only
  rw [if_pos this]
  congr 1

/-- A date written as in RFC 850 is understood from 1971 to 2070. -/
theorem C134_rfc850_partial (narrow : Bool) (c : Civil) (w : Nat) (hv : c.Valid) (h71 : 1971 ≤ c.year) (hy : c.year ≤ 2070)
    (hn : narrow = true → c.year ≤ 2037) (hw : w < 7) : parsedate narrow (c.rfc850 w) = .ok c.unix := by
  have hv0 := hv
  obtain ⟨v1, v2, v3, v4, v5, v6, v7⟩ := hv
  have hml := monthLen_le c.year c.mon
  have hd := day_long w hw
  have hval : numVal (d2 (c.year % 100)) = c.year % 100 := numVal_d2 _ (by omega)
  obtain ⟨s1, l1, p1, a1⟩ := loop_to 5 { rest := c.rfc850 w } _ (ne_of_app _ _ _ rfl hd.1.1)
    (step_day _ w (dayLong w) _ hd rfl rfl (no_alpha 44 _ (by decide)))
  have r1 := congrArg St.rest a1
  dsimp only at r1
  obtain ⟨s2, l2, p2, h2, a2⟩ := loop_to' 4 s1 _ (ne_of_cons _ _ _ r1)
    (step_mday s1 c.mday [44, 32] (d2 c.mday) _ r1 (sep_dec _ (by decide)) (by decide) v3 (by omega) (numVal_d2 _ (by omega)) (.inr rfl)
      (d2_digits _ (by omega)) (by simp [a1]) (by simp [a1]) (no_digit 45 _ (by decide)) (by simp))
  have r2 := congrArg St.rest a2
  dsimp only at r2
  obtain ⟨s3, l3, p3, a3⟩ := loop_to 3 s2 _ (ne_of_cons _ _ _ r2)
    (step_month s2 c.mon [45] _ v2 r2 (sep_dec _ (by decide)) (by simp [a1, a2]) (by simp [a1, a2]) (no_alpha 45 _ (by decide)))
  have r3 := congrArg St.rest a3
  dsimp only at r3
  obtain ⟨s4, l4, p4, h4, a4⟩ := loop_to' 2 s3 _ (ne_of_cons _ _ _ r3)
    (step_year s3 c.year [45] (d2 (c.year % 100)) _ r3 (sep_dec _ (by decide)) (by decide) (.inl rfl) (d2_digits _ (by omega))
      (by simp [a2, a3]) (by simp [a2, a3]) (by simp [a1, a2, a3]) (by omega)
      (by
        rw [hval, if_pos (by omega)]
        split <;> omega) (no_digit 32 _ (by decide)) (by simp))
  have r4 := congrArg St.rest a4
  dsimp only at r4
  obtain ⟨s5, l5, p5, a5⟩ := loop_to 1 s4 _ (ne_of_cons _ _ _ r4)
    (step_clock s4 c [32] _ r4 (sep_dec _ (by decide)) v5 v6 v7 (by simp [a1, a2, a3, a4]))
  have r5 := congrArg St.rest a5
  dsimp only at r5
  obtain ⟨s6, l6, p6, a6⟩ := loop_to 0 s5 _ (ne_of_cons _ _ _ r5)
    (step_gmt s5 [32] r5 (sep_dec _ (by decide)) (by simp [a1, a2, a3, a4, a5]) (by simp [a1, a2, a3, a4, a5]) (by simp [a1, a2, a3, a4, a5]))
  unfold parsedate
  rw [l1, l2, l3, l4, l5, l6]
  dsimp only [loop]
  rw [finish_found narrow c hv0 hn s6 (by simp [a1, a2, a3, a4, a5, a6]) (by simp [a1, a2, a3, a4, a5, a6]) (by simp [a1, a2, a3, a4, a5, a6])
    (by simp [a1, a2, a3, a4, a5, a6]) (by simp [a1, a2, a3, a4, a5, a6]) (by simp [a1, a2, a3, a4, a5, a6]), a6]
  simp

/-- A date written by `asctime` is understood. -/
theorem C134_asctime (narrow : Bool) (c : Civil) (w : Nat) (hv : c.Valid) (hy : c.year ≤ 9999) (hn : narrow = true → c.year ≤ 2037) (hw : w < 7) :
    parsedate narrow (c.asctime w) = .ok c.unix := by
  have hv0 := hv
  obtain ⟨v1, v2, v3, v4, v5, v6, v7⟩ := hv
  have hml := monthLen_le c.year c.mon
  have hd := day_name w hw
  obtain ⟨ws, ds, e, e1, e2, e3, e4, e5⟩ : ∃ ws ds, (if c.mday < 10 then [32, 32] ++ d1 c.mday else [32] ++ d2 c.mday) = 32 :: ws ++ ds ∧ Sep (32 :: ws) ∧
      (∀ x ∈ ds, isDigit x = true) ∧ (ds.length = 1 ∨ ds.length = 2) ∧ numVal ds = c.mday ∧ True := by
    by_cases h : c.mday < 10
    · refine ⟨[32], d1 c.mday, by rw [if_pos h], sep_dec _ (by decide), ?_, .inl rfl, numVal_d1 _, trivial⟩
      intro x hx
      simp only [d1, List.mem_cons, List.not_mem_nil, or_false] at hx
      subst hx
      exact digit_of _ h
    · exact ⟨[], d2 c.mday, by rw [if_neg h], sep_dec _ (by decide), d2_digits _ (by omega), .inr rfl, numVal_d2 _ (by omega), trivial⟩
  have et : c.asctime w = dayName w ++ ([32] ++ (monthName c.mon ++ (32 :: (ws ++ (ds ++ ([32] ++ (c.clock ++ ([32] ++ (d4 c.year ++ [])))))))) ) := by
    unfold Civil.asctime
    rw [e]
    simp
  rw [et]
  obtain ⟨s1, l1, p1, a1⟩ := loop_to 5 { rest := dayName w ++ ([32] ++ (monthName c.mon ++ (32 :: (ws ++ (ds ++ ([32] ++ (c.clock ++ ([32] ++ (d4 c.year ++ []))))))))) } _
    (ne_of_app _ _ _ rfl hd.1.1)
    (step_day _ w (dayName w) _ hd rfl rfl (no_alpha 32 _ (by decide)))
  have r1 := congrArg St.rest a1
  dsimp only at r1
  obtain ⟨s2, l2, p2, a2⟩ := loop_to 4 s1 _ (ne_of_cons _ _ _ r1)
    (step_month s1 c.mon [32] _ v2 r1 (sep_dec _ (by decide)) (by simp [a1]) (by simp [a1]) (no_alpha 32 _ (by decide)))
  have r2 := congrArg St.rest a2
  dsimp only at r2
  obtain ⟨s3, l3, p3, h3, a3⟩ := loop_to' 3 s2 _ (ne_of_cons _ _ _ r2)
    (step_mday s2 c.mday (32 :: ws) ds _ r2 e1 (by simp) v3 (by omega) e4 e3
      e2 (by simp [a1, a2]) (by simp [a1, a2]) (no_digit 32 _ (by decide)) (by simp))
  have r3 := congrArg St.rest a3
  dsimp only at r3
  obtain ⟨s4, l4, p4, a4⟩ := loop_to 2 s3 _ (ne_of_cons _ _ _ r3)
    (step_clock s3 c [32] _ r3 (sep_dec _ (by decide)) v5 v6 v7 (by simp [a1, a2, a3]))
  have r4 := congrArg St.rest a4
  dsimp only at r4
  obtain ⟨s5, l5, p5, a5⟩ := loop_to 1 s4 _ (ne_of_cons _ _ _ r4)
    (step_year2 s4 c.year [32] [] r4 (sep_dec _ (by decide)) (by decide) (by omega) hy (by simp [a3, a4]) (by simp [a3, a4])
      (by simp [a1, a2, a3, a4]) (by simp [a4]) (by simp))
  have l6 : loop 1 s5 = .ok s5 := by
    rw [loop, if_pos (by simp [a5])]
  unfold parsedate
  rw [l1, l2, l3, l4, l5, l6]
  dsimp only
  rw [finish_found narrow c hv0 hn s5 (by simp [a1, a2, a3, a4, a5]) (by simp [a1, a2, a3, a4, a5]) (by simp [a1, a2, a3, a4, a5])
    (by simp [a1, a2, a3, a4, a5]) (by simp [a1, a2, a3, a4, a5]) (by simp [a1, a2, a3, a4, a5])]
  simp [a1, a2, a3, a4, a5]

/-- The example of RFC 2616. -/
def exCivil : Civil := ⟨1994, 10, 6, 8, 49, 37⟩

example : exCivil.Valid ∧ exCivil.unix = 784111777 ∧ exCivil.rfc1123 6 [71, 77, 84] = [83, 117, 110, 44, 32, 48, 54, 32, 78, 111, 118, 32, 49, 57, 57, 52, 32, 48, 56, 58, 52, 57, 58, 51, 55, 32, 71, 77, 84] ∧
    exCivil.rfc850 6 = [83, 117, 110, 100, 97, 121, 44, 32, 48, 54, 45, 78, 111, 118, 45, 57, 52, 32, 48, 56, 58, 52, 57, 58, 51, 55, 32, 71, 77, 84] ∧ exCivil.asctime 6 = [83, 117, 110, 32, 78, 111, 118, 32, 32, 54, 32, 48, 56, 58, 52, 57, 58, 51, 55, 32, 49, 57, 57, 52] ∧
    exCivil.rfc1123 6 (offsetText true 5 30) = [83, 117, 110, 44, 32, 48, 54, 32, 78, 111, 118, 32, 49, 57, 57, 52, 32, 48, 56, 58, 52, 57, 58, 51, 55, 32, 43, 48, 53, 51, 48] := by decide +kernel

/-! ## Memory -/

theorem name_keeps (w : List Nat) (s t : St) (h : name w s = some t) : t.prev = s.prev ∧ t.rest = s.rest ∧ t.sec = s.sec := by
  unfold name at h
  split at h
  · cases h; exact ⟨rfl, rfl, rfl⟩
  · split at h
    · cases h; exact ⟨rfl, rfl, rfl⟩
    · split at h
      · cases h; exact ⟨rfl, rfl, rfl⟩
      · cases h

theorem yearPart_keeps (v : Int) (s t : St) (h : yearPart v s = some t) : t.prev = s.prev ∧ t.rest = s.rest ∧ t.sec = s.sec := by
  unfold yearPart at h
  split at h
  · cases h; exact ⟨rfl, rfl, rfl⟩
  · cases h

theorem number_keeps (v : Int) (n : Nat) (s t : St) (h : number v n s = some t) : t.prev = s.prev ∧ t.rest = s.rest ∧ t.sec = s.sec := by
  unfold number at h
  split at h
  · cases h; exact ⟨rfl, rfl, rfl⟩
  · split at h
    · cases h; exact ⟨rfl, rfl, rfl⟩
    · split at h
      · split at h
        · cases h; exact ⟨rfl, rfl, rfl⟩
        · have k := yearPart_keeps v _ t h
          exact k
      · have k := yearPart_keeps v _ t h
        exact k

theorem prefix_get (w r : List Nat) (h : w <+: r) (h1 : 1 ≤ w.length) : r[w.length - 1]? = w[w.length - 1]? := by
  obtain ⟨z, rfl⟩ := h
  rw [List.getElem?_append_left (by omega)]

theorem drop_digits (p : Nat → Bool) (r : List Nat) : r.drop (r.takeWhile p).length = r.dropWhile p := by
  have h : r = r.takeWhile p ++ r.dropWhile p := List.takeWhile_append_dropWhile.symm
  generalize r.takeWhile p = a at h ⊢
  generalize r.dropWhile p = b at h ⊢
  subst h
  exact List.drop_left ..

/-- Where the pointer is: in the text, and not within a number unless a time was found. -/
def Place (text : List Nat) (s : St) : Prop :=
  (∃ a, text = a ++ s.rest ∧ s.prev = a.getLast?) ∧
  (s.sec = -1 → ∀ x y, s.prev = some x → s.rest.head? = some y → isDigit x = true → isDigit y = false)

theorem skip_place (p : Option Nat) (r a : List Nat) (hp : p = a.getLast?) :
    ∃ b, a ++ r = b ++ (skip p r).2 ∧ (skip p r).1 = b.getLast? ∧
      ((skip p r).2 = r ∧ (skip p r).1 = p ∨ ∃ x, (skip p r).1 = some x ∧ isAlnum x = false) := by
  induction r generalizing p a with
  | nil => exact ⟨a, rfl, hp, .inl ⟨rfl, rfl⟩⟩
  | cons c r ih =>
    rw [skip]
    by_cases h : isAlnum c = true
    · rw [if_pos h]
      exact ⟨a, rfl, hp, .inl ⟨rfl, rfl⟩⟩
    · rw [if_neg h]
      obtain ⟨b, h1, h2, h3⟩ := ih (some c) (a ++ [c]) (by simp)
      refine ⟨b, by rw [← h1]; simp, h2, .inr ?_⟩
      rcases h3 with ⟨_, h4⟩ | h4
      · exact ⟨c, h4, by simpa using h⟩
      · exact h4

theorem advance_place (text : List Nat) (s : St) (n : Nat) (a : List Nat) (ha : text = a ++ s.rest) (hn : 1 ≤ n) (hl : n ≤ s.rest.length) :
    ∃ t, advance n s = .ok t ∧ t.sec = s.sec ∧ t.prev = s.rest[n - 1]? ∧ t.rest = s.rest.drop n ∧ text = (a ++ s.rest.take n) ++ t.rest ∧
      t.prev = (a ++ s.rest.take n).getLast? := by
  unfold advance
  rw [if_pos hl]
  refine ⟨_, rfl, rfl, ?_, rfl, ?_, ?_⟩
  · dsimp only
    rw [if_neg (by omega)]
  · rw [List.append_assoc, List.take_append_drop]
    exact ha
  · dsimp only
    rw [if_neg (by omega), List.getLast?_append, List.getLast?_eq_getElem?, List.length_take, Nat.min_eq_left hl, List.getElem?_take_of_lt (by omega),
      List.getElem?_eq_getElem (by omega)]
    rfl

/-- What is found of a time has its full length. -/
theorem clocks_len (text a q : List Nat) (c : Nat) (hc : Clocks text) (ht : text = a ++ c :: q) (hd : isDigit c = true)
    (hp : ∀ x, a.getLast? = some x → isDigit x = false) (h m x : Int) :
    ((scanTime (c :: q) h m x).1 = 3 → 8 ≤ (c :: q).length ∧ (scanTime (c :: q) h m x).2.2.2 ≠ -1) ∧
    ((scanTime (c :: q) h m x).1 = 2 → 5 ≤ (c :: q).length) := by
  have dig : ∀ x, 48 ≤ x → x ≤ 57 → isDigit x = true := by
    intro x h1 h2
    simp [isDigit, h1, h2]
  have nocolon : ∀ r : List Nat, r.head? ≠ some 58 → (colon r).bind scan2 = none := by
    intro q hq
    unfold colon
    split
    · exact absurd rfl hq
    · rfl
  have one : ∀ v r, scan2 (c :: q) = some (v, r) → r.head? ≠ some 58 → scanTime (c :: q) h m x = (1, v, m, x) := by
    intro v r h1 h2
    unfold scanTime
    rw [h1]
    dsimp only
    rw [nocolon r h2]
  cases q with
  | nil =>
    rw [one _ _ (scan2_end c hd) (by simp)]
    simp
  | cons d q =>
    by_cases hdd : isDigit d = true
    · have h1 := scan2_two c d q hd hdd
      by_cases hq : q.head? = some 58
      · cases q with
        | nil => simp at hq
        | cons e q =>
          simp at hq
          subst hq
          obtain ⟨_, y1, y2, b, rfl, g1, g2, g3, g4⟩ := hc (a ++ [c, d]) q (by rw [ht]; simp)
          have h2 := scan2_two y1 y2 b (dig _ g1 g2) (dig _ g3 g4)
          by_cases hb : b.head? = some 58
          · cases b with
            | nil => simp at hb
            | cons e b =>
              simp at hb
              subst hb
              obtain ⟨_, z1, z2, b', rfl, k1, k2, k3, k4⟩ := hc (a ++ [c, d, 58, y1, y2]) b (by rw [ht]; simp)
              have h3 := scan2_two z1 z2 b' (dig _ k1 k2) (dig _ k3 k4)
              have : scanTime (c :: d :: 58 :: y1 :: y2 :: 58 :: z1 :: z2 :: b') h m x = (3, (numVal [c, d] : Int), (numVal [y1, y2] : Int), (numVal [z1, z2] : Int)) := by
                unfold scanTime
                rw [h1]
                dsimp only
                rw [show ∀ q, (colon (58 :: q)).bind scan2 = scan2 q from fun q => rfl, h2]
                dsimp only
                rw [show ∀ q, (colon (58 :: q)).bind scan2 = scan2 q from fun q => rfl, h3]
              rw [this]
              refine ⟨fun _ => ⟨by simp, ?_⟩, fun _ => by simp⟩
              dsimp only
              omega
          · have : scanTime (c :: d :: 58 :: y1 :: y2 :: b) h m x = (2, (numVal [c, d] : Int), (numVal [y1, y2] : Int), x) := by
              unfold scanTime
              rw [h1]
              dsimp only
              rw [show ∀ q, (colon (58 :: q)).bind scan2 = scan2 q from fun q => rfl, h2]
              dsimp only
              rw [nocolon b hb]
            rw [this]
            refine ⟨fun h => absurd h (by simp), fun _ => by simp⟩
      · rw [one _ _ h1 hq]
        simp
    · have h1 := scan2_one c d q hd (by simpa using hdd)
      by_cases h58 : d = 58
      · subst h58
        obtain ⟨⟨b, x1, x2, e1, k1, k2, k3, k4⟩, _⟩ := hc (a ++ [c]) q (by rw [ht]; simp)
        have e2 : a = b ++ [x1] := by
          have := congrArg List.dropLast e1
          simpa using this
        have := hp x1 (by rw [e2]; simp)
        rw [dig x1 k1 k2] at this
        cases this
      · rw [one _ _ h1 (by simpa using h58)]
        simp

theorem skip_head (p : Option Nat) (r : List Nat) (c : Nat) (q : List Nat) (h : (skip p r).2 = c :: q) : isAlnum c = true := by
  induction r generalizing p with
  | nil => simp [skip] at h
  | cons d r ih =>
    rw [skip] at h
    split at h
    · rename_i hd
      cases h
      exact hd
    · exact ih _ h

theorem step_place (text : List Nat) (hc : Clocks text) (s : St) (hp : Place text s) :
    step s = .fail ∨ ∃ t, step s = .ok t ∧ Place text t := by
  obtain ⟨⟨a, ha, hpa⟩, hno⟩ := hp
  obtain ⟨b, hb1, hb2, hb3⟩ := skip_place s.prev s.rest a hpa
  rw [← ha] at hb1
  cases hq : (skip s.prev s.rest).2 with
  | nil =>
    right
    refine ⟨{ s with prev := (skip s.prev s.rest).1, rest := [] }, ?_, ⟨b, by rw [hb1, hq], hb2⟩, ?_⟩
    · unfold step
      dsimp only
      rw [hq]
    · intro _ x y _ hy
      simp at hy
  | cons c q =>
    rw [hq] at hb1
    by_cases hal : isAlpha c = true
    · have hst : step s = match name (word (c :: q)) { s with prev := (skip s.prev s.rest).1, rest := c :: q } with
          | none => .fail
          | some t => advance (word t.rest).length t := by
        unfold step
        dsimp only
        rw [hq]
        dsimp only
        rw [if_pos hal]
        cases name (word (c :: q)) { s with prev := (skip s.prev s.rest).1, rest := c :: q } <;> rfl
      cases hn : name (word (c :: q)) { s with prev := (skip s.prev s.rest).1, rest := c :: q } with
      | none =>
        rw [hn] at hst
        exact .inl hst
      | some t =>
        rw [hn] at hst
        obtain ⟨k1, k2, k3⟩ := name_keeps _ _ _ hn
        dsimp only at hst k1 k2 k3
        have hwl : (word t.rest).length ≤ t.rest.length := by
          unfold word
          rw [List.length_take]
          have := (List.takeWhile_prefix (l := t.rest) isAlpha).length_le
          omega
        have hw1 : 1 ≤ (word t.rest).length := by
          rw [k2]
          unfold word
          rw [List.length_take, List.takeWhile_cons, if_pos hal]
          simp
          omega
        obtain ⟨t', e1, e2, e3, e4, e5, e6⟩ := advance_place text t (word t.rest).length b (by rw [k2]; exact hb1) hw1 hwl
        right
        refine ⟨t', by rw [hst]; exact e1, ⟨_, e5, e6⟩, ?_⟩
        intro _ x y hx _ hdx
        exfalso
        rw [e3] at hx
        have hmem : x ∈ word t.rest := by
          have : (word t.rest)[(word t.rest).length - 1]? = some x := by
            rw [← hx]
            have hpre : word t.rest <+: t.rest := (List.take_prefix _ _).trans (List.takeWhile_prefix _)
            exact (prefix_get _ _ hpre hw1).symm
          exact List.mem_of_getElem? this
        have hax : isAlpha x = true := by
          have := List.mem_of_mem_take hmem
          exact List.all_eq_true.1 (List.all_takeWhile) x this
        simp [isAlpha, isDigit] at hax hdx
        omega
    · have hal' : isAlpha c = false := by simpa using hal
      have hdc : isDigit c = true := by
        -- the first byte is a letter or a digit
        have : isAlnum c = true := skip_head s.prev s.rest c q hq
        simpa [isAlnum, hal'] using this
      have hskip : skip s.prev s.rest = ((skip s.prev s.rest).1, c :: q) := by rw [← hq]
      have hdig : ∀ u : St, u.prev = (skip s.prev s.rest).1 → u.rest = c :: q → digits u = .fail ∨ ∃ t, digits u = .ok t ∧ Place text t := by
        intro u hu1 hu2
        unfold digits
        dsimp only
        split
        · exact .inl rfl
        · cases hn : number (numVal (u.rest.takeWhile isDigit)) (u.rest.takeWhile isDigit).length u with
          | none => exact .inl rfl
          | some t =>
            obtain ⟨k1, k2, k3⟩ := number_keeps _ _ _ _ hn
            have hl1 : 1 ≤ (u.rest.takeWhile isDigit).length := by
              rw [hu2, List.takeWhile_cons, if_pos hdc]
              simp
            have hl2 : (u.rest.takeWhile isDigit).length ≤ t.rest.length := by
              rw [k2]
              exact (List.takeWhile_prefix _).length_le
            obtain ⟨t', e1, e2, e3, e4, e5, e6⟩ := advance_place text t _ b (by rw [k2, hu2]; exact hb1) hl1 hl2
            right
            refine ⟨t', e1, ⟨_, e5, e6⟩, ?_⟩
            intro _ x y _ hy _
            rw [e4, k2, drop_digits] at hy
            have := List.head?_dropWhile_not isDigit u.rest
            rw [hy] at this
            simpa using this
      rw [step_digit s _ c q hskip hal']
      by_cases hsec : s.sec = -1
      · rw [if_pos hsec]
        have hlast : ∀ x, b.getLast? = some x → isDigit x = false := by
          intro x hx
          rw [← hb2] at hx
          rcases hb3 with ⟨h1, h2⟩ | ⟨z, h1, h2⟩
          · rw [h2] at hx
            cases hxd : isDigit x with
            | false => rfl
            | true =>
              have := hno hsec x c hx (by rw [← h1, hq]; rfl) hxd
              rw [hdc] at this
              cases this
          · rw [h1] at hx
            cases hx
            simp [isAlnum] at h2
            exact h2.2
        obtain ⟨c3, c2⟩ := clocks_len text b q c hc hb1 hdc hlast s.hour s.min s.sec
        dsimp only
        by_cases h3 : (scanTime (c :: q) s.hour s.min s.sec).1 = 3
        · rw [if_pos h3]
          obtain ⟨l8, nz⟩ := c3 h3
          obtain ⟨t', e1, e2, e3, e4, e5, e6⟩ := advance_place text { s with prev := (skip s.prev s.rest).1, rest := c :: q, hour := (scanTime (c :: q) s.hour s.min s.sec).2.1, min := (scanTime (c :: q) s.hour s.min s.sec).2.2.1, sec := (scanTime (c :: q) s.hour s.min s.sec).2.2.2 } 8 b hb1 (by omega) l8
          exact .inr ⟨t', e1, ⟨_, e5, e6⟩, fun hz => absurd (e2.symm.trans hz) nz⟩
        · rw [if_neg h3]
          by_cases h2 : (scanTime (c :: q) s.hour s.min s.sec).1 = 2
          · rw [if_pos h2]
            obtain ⟨t', e1, e2, e3, e4, e5, e6⟩ := advance_place text { s with prev := (skip s.prev s.rest).1, rest := c :: q, hour := (scanTime (c :: q) s.hour s.min s.sec).2.1, min := (scanTime (c :: q) s.hour s.min s.sec).2.2.1, sec := 0 } 5 b hb1 (by omega) (c2 h2)
            refine .inr ⟨t', e1, ⟨_, e5, e6⟩, fun hz => ?_⟩
            rw [e2] at hz
            simp at hz
          · rw [if_neg h2]
            exact hdig _ rfl rfl
      · rw [if_neg hsec]
        exact hdig _ rfl rfl

/-- If each colon has two digits before it and behind it, nothing outside of the text is read. -/
theorem C134_safe_partial (narrow : Bool) (text : List Nat) (hc : Clocks text) : parsedate narrow text ≠ .ub := by
  have key : ∀ k s, Place text s → loop k s ≠ .ub := by
    intro k
    induction k with
    | zero => intro s _; simp [loop]
    | succ k ih =>
      intro s hs
      rw [loop]
      split
      · simp
      · rcases step_place text hc s hs with h | ⟨t, h, ht⟩
        · rw [h]; simp
        · rw [h]; exact ih t ht
  have h := key 6 { rest := text } ⟨⟨[], rfl, rfl⟩, fun _ x y hx => by cases hx⟩
  unfold parsedate
  split
  · rename_i s _
    unfold finish
    dsimp only
    generalize (if s.sec = -1 then { s with sec := 0, min := 0, hour := 0 } else s) = u
    repeat' split
    all_goals simp
  · simp
  · rename_i e
    exact absurd e h

/-- A time as servers write it has such colons. -/
example : Clocks [83, 117, 110, 44, 32, 48, 54, 32, 78, 111, 118, 32, 49, 57, 57, 52, 32, 48, 56, 58, 52, 57, 58, 51, 55, 32, 71, 77, 84] := by
  intro a r h
  have h1 : a.length = 19 ∨ a.length = 22 := by
    have hl := congrArg List.length h
    have hg : ([83, 117, 110, 44, 32, 48, 54, 32, 78, 111, 118, 32, 49, 57, 57, 52, 32, 48, 56, 58, 52, 57, 58, 51, 55, 32, 71, 77, 84] : List Nat)[a.length]? = some 58 := by
      rw [h]
      simp
    have hlt : a.length < 29 := by
      simp at hl
      omega
    revert hg
    generalize a.length = n at hlt
    revert n
    decide
  have ha : a = ([83, 117, 110, 44, 32, 48, 54, 32, 78, 111, 118, 32, 49, 57, 57, 52, 32, 48, 56, 58, 52, 57, 58, 51, 55, 32, 71, 77, 84] : List Nat).take a.length := by
    rw [h]
    simp
  have hr : r = ([83, 117, 110, 44, 32, 48, 54, 32, 78, 111, 118, 32, 49, 57, 57, 52, 32, 48, 56, 58, 52, 57, 58, 51, 55, 32, 71, 77, 84] : List Nat).drop (a.length + 1) := by
    rw [h, ← List.drop_drop]
    simp
  rcases h1 with h1 | h1 <;> rw [h1] at ha hr <;> subst ha <;> subst hr
  · exact ⟨⟨[83, 117, 110, 44, 32, 48, 54, 32, 78, 111, 118, 32, 49, 57, 57, 52, 32], 48, 56, by decide⟩, ⟨52, 57, [58, 51, 55, 32, 71, 77, 84], by decide⟩⟩
  · exact ⟨⟨[83, 117, 110, 44, 32, 48, 54, 32, 78, 111, 118, 32, 49, 57, 57, 52, 32, 48, 56, 58], 52, 57, by decide⟩, ⟨51, 55, [32, 71, 77, 84], by decide⟩⟩

/-- Without two digits in each place the pointer goes behind the end of the text. -/
theorem C134_safe_false : ¬ ∀ text, parsedate true text ≠ .ub := by
  intro h
  exact h [77, 111, 110, 32, 49, 58, 50, 58, 51] (by decide +kernel)

/-! ## The time fits into 32 bits -/

/-- The numbers found are small. -/
def Small (s : St) : Prop :=
  -1 ≤ s.mday ∧ -1 ≤ s.mon ∧ -9 ≤ s.hour ∧ s.hour ≤ 99 ∧ -9 ≤ s.min ∧ s.min ≤ 99 ∧ -9 ≤ s.sec ∧ s.sec ≤ 99 ∧ -60000 ≤ s.tz ∧ s.tz ≤ 60000

theorem numVal_two (ds : List Nat) (h : ds.all isDigit = true) (hl : ds.length ≤ 2) : numVal ds ≤ 99 := by
  match ds, hl with
  | [], _ => simp [numVal]
  | [a], _ => simp [isDigit] at h; simp [numVal]; omega
  | [a, b], _ => simp [isDigit] at h; simp [numVal]; omega

theorem take_digits (r : List Nat) (n : Nat) : ((r.takeWhile isDigit).take n).all isDigit = true := by
  rw [List.all_eq_true]
  intro x hx
  exact List.all_eq_true.1 List.all_takeWhile x (List.mem_of_mem_take hx)

theorem numVal_one (ds : List Nat) (h : ds.all isDigit = true) (hl : ds.length ≤ 1) : numVal ds ≤ 9 := by
  match ds, hl with
  | [], _ => simp [numVal]
  | [a], _ => simp [isDigit] at h; simp [numVal]; omega

theorem scan2_small (t : List Nat) (v : Int) (r : List Nat) (h : scan2 t = some (v, r)) : -9 ≤ v ∧ v ≤ 99 := by
  unfold scan2 at h
  split at h
  · rename_i q _
    have h1 := numVal_one _ (take_digits q 1) (by rw [List.length_take]; omega)
    generalize (q.takeWhile isDigit).take 1 = ds at h h1
    split at h
    · cases h
    · cases h
      omega
  · rename_i q _
    have h1 := numVal_one _ (take_digits q 1) (by rw [List.length_take]; omega)
    generalize (q.takeWhile isDigit).take 1 = ds at h h1
    split at h
    · cases h
    · cases h
      omega
  · have h1 := numVal_two _ (take_digits (t.dropWhile isSpace) 2) (by rw [List.length_take]; omega)
    generalize ((t.dropWhile isSpace).takeWhile isDigit).take 2 = ds at h h1
    split at h
    · cases h
    · cases h
      omega

theorem scanTime_small (t : List Nat) (h m x : Int) (hh : -9 ≤ h ∧ h ≤ 99) (hm : -9 ≤ m ∧ m ≤ 99) (hx : -9 ≤ x ∧ x ≤ 99) :
    (-9 ≤ (scanTime t h m x).2.1 ∧ (scanTime t h m x).2.1 ≤ 99) ∧ (-9 ≤ (scanTime t h m x).2.2.1 ∧ (scanTime t h m x).2.2.1 ≤ 99) ∧
    (-9 ≤ (scanTime t h m x).2.2.2 ∧ (scanTime t h m x).2.2.2 ≤ 99) := by
  have bnd : ∀ (q : List Nat) v r, (colon q).bind scan2 = some (v, r) → -9 ≤ v ∧ v ≤ 99 := by
    intro q v r hq
    cases hc : colon q with
    | none => rw [hc] at hq; cases hq
    | some p => rw [hc] at hq; exact scan2_small p v r hq
  unfold scanTime
  split
  · exact ⟨hh, hm, hx⟩
  · rename_i e1
    have b1 := scan2_small _ _ _ e1
    split
    · exact ⟨b1, hm, hx⟩
    · rename_i e2
      have b2 := bnd _ _ _ e2
      split
      · exact ⟨b1, b2, hx⟩
      · rename_i e3
        exact ⟨b1, b2, bnd _ _ _ e3⟩

theorem checkmonth_ge (w : List Nat) : -1 ≤ checkmonth w := by
  unfold checkmonth find
  split <;> omega

theorem checktz_small (w : List Nat) : -60000 ≤ checktz w ∧ checktz w ≤ 60000 := by
  unfold checktz
  split
  · rename_i x hx
    have hm := List.mem_of_find?_eq_some hx
    have : ∀ y ∈ zones, -60000 ≤ y.2 * 60 ∧ y.2 * 60 ≤ 60000 := by decide +kernel
    exact this x hm
  · omega

theorem name_small (w : List Nat) (s t : St) (hs : Small s) (h : name w s = some t) : Small t := by
  obtain ⟨h1, h2, h3, h4, h5, h6, h7, h8, h9, h10⟩ := hs
  unfold name at h
  split at h
  · cases h; exact ⟨h1, h2, h3, h4, h5, h6, h7, h8, h9, h10⟩
  · split at h
    · cases h; exact ⟨h1, checkmonth_ge w, h3, h4, h5, h6, h7, h8, h9, h10⟩
    · split at h
      · cases h; exact ⟨h1, h2, h3, h4, h5, h6, h7, h8, (checktz_small w).1, (checktz_small w).2⟩
      · cases h

theorem yearPart_small (v : Int) (s t : St) (hs : Small s) (h : yearPart v s = some t) : Small t := by
  unfold yearPart at h
  split at h
  · cases h; exact hs
  · cases h

theorem number_small (v : Nat) (n : Nat) (s t : St) (hs : Small s) (h : number v n s = some t) : Small t := by
  have hs' := hs
  obtain ⟨h1, h2, h3, h4, h5, h6, h7, h8, h9, h10⟩ := hs
  unfold number at h
  split at h
  · rename_i hc
    obtain ⟨_, _, hv, _⟩ := hc
    cases h
    refine ⟨h1, h2, h3, h4, h5, h6, h7, h8, ?_, ?_⟩ <;> dsimp only <;> split <;> omega
  · split at h
    · cases h
      refine ⟨?_, ?_, h3, h4, h5, h6, h7, h8, h9, h10⟩ <;> dsimp only <;> omega
    · split at h
      · split at h
        · cases h
          exact ⟨by dsimp only; omega, h2, h3, h4, h5, h6, h7, h8, h9, h10⟩
        · exact yearPart_small v { s with dig := .year } t hs' h
      · exact yearPart_small v s t hs' h

theorem advance_small (n : Nat) (s t : St) (hs : Small s) (h : advance n s = .ok t) : Small t := by
  unfold advance at h
  split at h
  · cases h; exact hs
  · cases h

theorem digits_small (s t : St) (hs : Small s) (h : digits s = .ok t) : Small t := by
  unfold digits at h
  dsimp only at h
  split at h
  · cases h
  · split at h
    · cases h
    · rename_i e
      exact advance_small _ _ _ (number_small _ _ _ _ hs e) h

theorem step_small (s t : St) (hs : Small s) (h : step s = .ok t) : Small t := by
  have hp : ∀ p r, Small { s with prev := p, rest := r } := fun _ _ => hs
  unfold step at h
  dsimp only at h
  split at h
  · cases h; exact hs
  · split at h
    · split at h
      · cases h
      · rename_i e
        exact advance_small _ _ _ (name_small _ _ _ (hp _ _) e) h
    · obtain ⟨h1, h2, h3, h4, h5, h6, h7, h8, h9, h10⟩ := hs
      split at h
      · obtain ⟨b1, b2, b3⟩ := scanTime_small (skip s.prev s.rest).2 s.hour s.min s.sec ⟨h3, h4⟩ ⟨h5, h6⟩ ⟨h7, h8⟩
        split at h
        · exact advance_small _ { s with prev := (skip s.prev s.rest).1, rest := (skip s.prev s.rest).2, hour := _, min := _, sec := _ } _ ⟨h1, h2, b1.1, b1.2, b2.1, b2.2, b3.1, b3.2, h9, h10⟩ h
        · split at h
          · exact advance_small _ { s with prev := (skip s.prev s.rest).1, rest := (skip s.prev s.rest).2, hour := _, min := _, sec := 0 } _ ⟨h1, h2, b1.1, b1.2, b2.1, b2.2, by dsimp only; omega, by dsimp only; omega, h9, h10⟩ h
          · exact digits_small { s with prev := (skip s.prev s.rest).1, rest := (skip s.prev s.rest).2, hour := _, min := _ } _ ⟨h1, h2, b1.1, b1.2, b2.1, b2.2, h7, h8, h9, h10⟩ h
      · exact digits_small _ _ (hp _ _) h

theorem loop_small (k : Nat) (s t : St) (hs : Small s) (h : loop k s = .ok t) : Small t := by
  induction k generalizing s with
  | zero => cases h; exact hs
  | succ k ih =>
    rw [loop] at h
    split at h
    · cases h; exact hs
    · split at h
      · rename_i e
        exact ih _ (step_small _ _ hs e) h
      · cases h
      · cases h

theorem timegm_small (sec min hour mday mon y : Int) (h1 : -9 ≤ sec ∧ sec ≤ 60) (h2 : -9 ≤ min ∧ min ≤ 59) (h3 : -9 ≤ hour ∧ hour ≤ 23)
    (h4 : 0 ≤ mday ∧ mday ≤ 31) (h5 : 0 ≤ mon ∧ mon ≤ 11) (h6 : 1970 ≤ y ∧ y ≤ 2037) :
    -200000 ≤ timegm sec min hour mday mon (y - 1900) ∧ timegm sec min hour mday mon (y - 1900) ≤ 2147400000 - 60000 := by
  have hcum : 0 ≤ (cumulative[mon.toNat]?).getD 0 ∧ (cumulative[mon.toNat]?).getD 0 ≤ 334 := by
    have : ∀ n : Nat, n < 12 → 0 ≤ (cumulative[n]?).getD 0 ∧ (cumulative[n]?).getD 0 ≤ 334 := by decide
    exact this _ (by omega)
  unfold timegm
  rw [if_neg (by omega)]
  dsimp only
  rw [if_neg (show ¬ mon < 0 by omega), if_neg (show ¬ mon ≥ 12 by omega)]
  dsimp only
  generalize (cumulative[mon.toNat]?).getD 0 = cu at hcum
  have hl : 1969 ≤ (y - 1900 + 1900 - if mon ≤ 1 then 1 else 0) ∧ (y - 1900 + 1900 - if mon ≤ 1 then 1 else 0) ≤ 2037 := by
    split <;> omega
  generalize (y - 1900 + 1900 - if mon ≤ 1 then 1 else 0) = l at hl
  have ha : 492 ≤ l / 4 ∧ l / 4 ≤ 509 := by omega
  have hb : 19 ≤ l / 100 ∧ l / 100 ≤ 20 := by omega
  have hc : 4 ≤ l / 400 ∧ l / 400 ≤ 5 := by omega
  have hc' : l / 100 = 19 ∧ l / 400 = 4 ∨ l / 100 = 20 ∧ l / 400 = 5 := by omega
  generalize l / 4 = a at ha
  generalize l / 100 = b at hb hc'
  generalize l / 400 = c at hc hc'
  have he : 0 ≤ a - b + c - 1969 / 4 + 1969 / 100 - 1969 / 400 ∧ a - b + c - 1969 / 4 + 1969 / 100 - 1969 / 400 ≤ 17 := by omega
  generalize a - b + c - 1969 / 4 + 1969 / 100 - 1969 / 400 = e at he
  omega

/-- As the library is compiled, a time that is reported fits into 32 bits. -/
theorem C134_fits (text : List Nat) (t : Int) (h : parsedate true text = .ok t) : -2147483648 ≤ t ∧ t ≤ 2147483647 := by
  unfold parsedate at h
  split at h
  · rename_i s e
    have hs := loop_small 6 _ _ (show Small { rest := text } by unfold Small; dsimp only; omega) e
    unfold finish at h
    dsimp only at h
    have hu : Small (if s.sec = -1 then { s with sec := 0, min := 0, hour := 0 } else s) := by
      split
      · obtain ⟨h1, h2, h3, h4, h5, h6, h7, h8, h9, h10⟩ := hs
        unfold Small; dsimp only; omega
      · exact hs
    generalize (if s.sec = -1 then { s with sec := 0, min := 0, hour := 0 } else s) = u at h hu
    obtain ⟨h1, h2, h3, h4, h5, h6, h7, h8, h9, h10⟩ := hu
    split at h
    · cases h
    · rename_i g1
      split at h
      · cases h
      · rename_i g2
        split at h
        · cases h
        · rename_i g3
          split at h
          · cases h
          · rename_i g4
            have b := timegm_small u.sec u.min u.hour u.mday u.mon u.year (by omega) (by omega) (by omega) (by omega) (by omega)
              (by simp at g2; omega)
            generalize timegm u.sec u.min u.hour u.mday u.mon (u.year - 1900) = v at h b
            split at h
            · cases h; omega
            · cases h
              split <;> omega
  · cases h
  · cases h

example : parsedate true [84, 117, 101, 44, 32, 51, 49, 32, 68, 101, 99, 32, 50, 48, 51, 55, 32, 50, 51, 58, 53, 57, 58, 54, 48, 32, 73, 68, 76, 87] = .ok 2145960000 := by decide +kernel

/-- As the library is compiled, no time after 2037 is reported as such. -/
theorem C134_late_false : ¬ ∀ (c : Civil) (w : Nat), c.Valid → w < 7 → parsedate true (c.rfc1123 w [71, 77, 84]) = .ok c.unix := by
  intro h
  have := h ⟨2038, 0, 1, 0, 0, 0⟩ 4 (by decide) (by decide)
  revert this
  decide +kernel

/-! ## What is wrongly read -/

/-- A day that does not exist is the day after. -/
theorem C134_exists_false : ∃ t, parsedate true [51, 49, 32, 70, 101, 98, 32, 50, 48, 50, 53] = .ok t ∧ parsedate true [51, 32, 77, 97, 114, 32, 50, 48, 50, 53] = .ok t :=
  ⟨1740960000, by decide +kernel⟩

/-- Day zero is accepted. -/
theorem C134_zero_false : ∃ t, parsedate true [77, 111, 110, 32, 50, 48, 50, 53, 48, 51, 48, 48] = .ok t ∧ parsedate true [77, 111, 110, 32, 50, 48, 50, 53, 48, 50, 50, 56] = .ok t :=
  ⟨1740700800, by decide +kernel⟩

/-- Minutes and seconds may be negative. -/
theorem C134_negative_false : ∃ t, parsedate true [77, 111, 110, 32, 51, 32, 77, 97, 114, 32, 50, 48, 50, 53, 32, 49, 50, 58, 45, 53, 58, 45, 57] = .ok t ∧ parsedate true [77, 111, 110, 32, 51, 32, 77, 97, 114, 32, 50, 48, 50, 53, 32, 49, 49, 58, 53, 52, 58, 53, 49] = .ok t :=
  ⟨1741002891, by decide +kernel⟩

/-- The day of the week is not compared with the date. -/
theorem C134_weekday_false : ∃ t, parsedate true [83, 117, 110, 44, 32, 48, 54, 32, 78, 111, 118, 32, 49, 57, 57, 52, 32, 48, 56, 58, 52, 57, 58, 51, 55, 32, 71, 77, 84] = .ok t ∧ parsedate true [77, 111, 110, 44, 32, 48, 54, 32, 78, 111, 118, 32, 49, 57, 57, 52, 32, 48, 56, 58, 52, 57, 58, 51, 55, 32, 71, 77, 84] = .ok t :=
  ⟨784111777, by decide +kernel⟩

/-- The zone `A` is an hour east of Greenwich, but is taken for one west of it. -/
theorem C134_letters_false : ∃ t, parsedate true [83, 117, 110, 44, 32, 48, 54, 32, 78, 111, 118, 32, 49, 57, 57, 52, 32, 48, 56, 58, 52, 57, 58, 51, 55, 32, 43, 48, 49, 48, 48] = .ok t ∧ parsedate true [83, 117, 110, 44, 32, 48, 54, 32, 78, 111, 118, 32, 49, 57, 57, 52, 32, 48, 56, 58, 52, 57, 58, 51, 55, 32, 65] = .ok (t + 7200) :=
  ⟨784108177, by decide +kernel⟩

/-- The first year is not found in the form with two digits. -/
theorem C134_rfc850_false : ¬ ∀ (c : Civil) (w : Nat), c.Valid → c.year < 2070 → w < 7 → parsedate true (c.rfc850 w) = .ok c.unix := by
  intro h
  have := h ⟨1970, 0, 1, 0, 0, 0⟩ 3 (by decide) (by decide) (by decide)
  revert this
  decide +kernel

/-- What follows the sixth part is not looked at. -/
theorem C134_rest_false (narrow : Bool) : ∃ t, parsedate narrow [83, 117, 110, 44, 32, 48, 54, 32, 78, 111, 118, 32, 49, 57, 57, 52, 32, 48, 56, 58, 52, 57, 58, 51, 55, 32, 71, 77, 84] = .ok t ∧ parsedate narrow [83, 117, 110, 44, 32, 48, 54, 32, 78, 111, 118, 32, 49, 57, 57, 52, 32, 48, 56, 58, 52, 57, 58, 51, 55, 32, 71, 77, 84, 32, 111, 114, 32, 110, 101, 118, 101, 114] = .ok t :=
  ⟨784111777, by cases narrow <;> decide +kernel⟩

/-- One time keeps its zone unapplied. -/
theorem C134_offset_false : ¬ ∀ (c : Civil) (w : Nat) (east : Bool) (hours mins : Nat), c.Valid → c.year < 10000 → w < 7 → hours ≤ 13 → mins < 60 →
    parsedate false (c.rfc1123 w (offsetText east hours mins)) = .ok (c.unix - offsetSec east hours mins) := by
  intro h
  have := h ⟨2106, 1, 7, 6, 28, 15⟩ 6 true 1 0 (by decide) (by decide) (by decide) (by decide) (by decide)
  revert this
  decide +kernel

/-- Where a day is expected, a zero is taken for the year 2000. -/
theorem C134_year_first_false : parsedate true [48, 48, 32, 78, 111, 118, 32, 54] = .ok 973468800 ∧ parsedate true [54, 32, 78, 111, 118, 32, 50, 48, 48, 48] = .ok 973468800 := by
  decide +kernel

/-- Years before the first and after the last are told apart. -/
theorem C134_range : parsedate true [83, 117, 110, 44, 32, 48, 54, 32, 78, 111, 118, 32, 49, 57, 54, 48, 32, 48, 56, 58, 52, 57, 58, 51, 55, 32, 71, 77, 84] = .sooner ∧ parsedate false [83, 117, 110, 44, 32, 48, 54, 32, 78, 111, 118, 32, 49, 57, 54, 48, 32, 48, 56, 58, 52, 57, 58, 51, 55, 32, 71, 77, 84] = .sooner
    ∧ parsedate true [83, 117, 110, 44, 32, 48, 54, 32, 78, 111, 118, 32, 50, 48, 53, 48, 32, 48, 56, 58, 52, 57, 58, 51, 55, 32, 71, 77, 84] = .later ∧ parsedate false [83, 117, 110, 44, 32, 48, 54, 32, 78, 111, 118, 32, 50, 48, 53, 48, 32, 48, 56, 58, 52, 57, 58, 51, 55, 32, 71, 77, 84] = .ok 2551337377 := by
  decide +kernel

/-! ## The caller -/

theorem retryLoop_same (narrow : Bool) (hs : List Hdr) (r0 r : Retry) (h : retryLoop narrow hs r0 = some r) :
    (r.rv, r.delay) = ClientResp.retryLoop hs (r0.rv, r0.delay) := by
  induction hs generalizing r0 with
  | nil => cases h; rfl
  | cons x hs ih =>
    rw [retryLoop] at h
    rw [ClientResp.retryLoop]
    by_cases hn : caseEq x.name [82, 101, 116, 114, 121, 45, 65, 102, 116, 101, 114] = true
    · rw [if_pos hn] at h
      rw [hn]
      by_cases ha : isAlpha (x.value.headD 0) = true
      · rw [if_pos ha] at h
        have hno : (true && x.value != [] && x.value.all isDigit && decide (numVal x.value ≤ 2147483647)) = false := by
          cases hx : x.value with
          | nil => simp
          | cons c q =>
            rw [hx] at ha
            have : isDigit c = false := by
              simp [isAlpha] at ha
              simp [isDigit]
              omega
            simp [this]
        rw [hno]
        split at h
        · have := ih _ h; exact this
        · have := ih _ h; exact this
        · have := ih _ h; exact this
        · have := ih _ h; exact this
        · cases h
      · rw [if_neg ha] at h
        rw [Bool.true_and]
        split at h
        · rename_i hg
          rw [if_pos hg]
          have := ih _ h; exact this
        · rename_i hg
          rw [if_neg hg]
          have := ih _ h; exact this
    · rw [if_neg hn] at h
      have hno : caseEq x.name [82, 101, 116, 114, 121, 45, 65, 102, 116, 101, 114] = false := by simpa using hn
      rw [hno]
      have := ih _ h
      exact this

/-- With and without support for dates the same result and the same delay are found: a date makes no difference. -/
theorem C134_caller (narrow : Bool) (hs : List Hdr) (r : Retry) (h : retryAfter narrow hs = some r) : (r.rv, r.delay) = ClientResp.retryAfter hs :=
  retryLoop_same narrow hs {} r h

example : retryAfter true [⟨[82, 101, 116, 114, 121, 45, 65, 102, 116, 101, 114], [83, 117, 110, 44, 32, 48, 54, 32, 78, 111, 118, 32, 49, 57, 57, 52, 32, 48, 56, 58, 52, 57, 58, 51, 55, 32, 71, 77, 84]⟩, ⟨[114, 101, 116, 114, 121, 45, 97, 102, 116, 101, 114], [49, 50, 48]⟩] =
    some { rv := .caEnrollRetry, delay := 120, date := 784111777 } := by decide +kernel

theorem day_alpha (w : Nat) (hw : w < 7) : ∃ x q, dayName w = x :: q ∧ isAlpha x = true := by
  have : ∀ w : Nat, w < 7 → isAlpha ((dayName w).headD 0) = true ∧ dayName w ≠ [] := by decide
  obtain ⟨h1, h2⟩ := this w hw
  cases hd : dayName w with
  | nil => exact absurd hd h2
  | cons x q => rw [hd] at h1; exact ⟨x, q, rfl, h1⟩

/-- A date in the preferred form is stored, but the caller is told that the value is not valid. -/
theorem C134_stored_partial (narrow : Bool) (c : Civil) (w : Nat) (hv : c.Valid) (hy : c.year ≤ 9999) (hn : narrow = true → c.year ≤ 2037) (hw : w < 7) :
    retryAfter narrow [⟨[82, 101, 116, 114, 121, 45, 65, 102, 116, 101, 114], c.rfc1123 w [71, 77, 84]⟩] = some { rv := .invalidRetryValue, delay := 0, date := c.unix } := by
  have hd := C134_rfc1123 narrow c w hv hy hn hw
  obtain ⟨x, q, e, hx⟩ := day_alpha w hw
  have hh : isAlpha ((c.rfc1123 w [71, 77, 84]).headD 0) = true := by
    unfold Civil.rfc1123
    rw [e]
    exact hx
  generalize c.rfc1123 w [71, 77, 84] = v at hd hh
  unfold retryAfter
  rw [retryLoop]
  dsimp only
  rw [if_pos (by decide), if_pos hh, hd]
  rfl

/-- So a server that gives a date is never obeyed. -/
theorem C134_reported_false : ¬ ∀ (c : Civil) (w : Nat) (r : Retry), c.Valid → c.year ≤ 2037 → w < 7 →
    retryAfter true [⟨[82, 101, 116, 114, 121, 45, 65, 102, 116, 101, 114], c.rfc1123 w [71, 77, 84]⟩] = some r → r.rv = .caEnrollRetry := by
  intro h
  have := h ⟨2026, 10, 16, 12, 0, 0⟩ 0 { rv := .invalidRetryValue, delay := 0, date := 1794830400 } (by decide) (by decide) (by decide) (by decide +kernel)
  cases this

/-- A date that could not be represented is stored as another one. -/
theorem C134_unparsed_false : retryAfter true [⟨[82, 101, 116, 114, 121, 45, 65, 102, 116, 101, 114], [70, 114, 105, 44, 32, 48, 49, 32, 74, 97, 110, 32, 50, 48, 51, 56, 32, 48, 48, 58, 48, 48, 58, 48, 48, 32, 71, 77, 84]⟩] =
    some { rv := .invalidRetryValue, delay := 0, date := 2147483647 } := by decide +kernel

/-- A later header replaces the date of an earlier one, with zero if it is before 1970; one that cannot be read leaves it. -/
theorem C134_replaced (narrow : Bool) :
    retryAfter narrow [⟨[82, 101, 116, 114, 121, 45, 65, 102, 116, 101, 114], [83, 117, 110, 44, 32, 48, 54, 32, 78, 111, 118, 32, 49, 57, 57, 52, 32, 48, 56, 58, 52, 57, 58, 51, 55, 32, 71, 77, 84]⟩, ⟨[82, 101, 116, 114, 121, 45, 65, 102, 116, 101, 114], [83, 117, 110, 44, 32, 48, 54, 32, 78, 111, 118, 32, 49, 57, 54, 48, 32, 48, 56, 58, 52, 57, 58, 51, 55, 32, 71, 77, 84]⟩] =
      some { rv := .invalidRetryValue, delay := 0, date := 0 }
    ∧ retryAfter narrow [⟨[82, 101, 116, 114, 121, 45, 65, 102, 116, 101, 114], [83, 117, 110, 44, 32, 48, 54, 32, 78, 111, 118, 32, 49, 57, 57, 52, 32, 48, 56, 58, 52, 57, 58, 51, 55, 32, 71, 77, 84]⟩, ⟨[82, 101, 116, 114, 121, 45, 65, 102, 116, 101, 114], [110, 101, 118, 101, 114]⟩] =
      some { rv := .invalidRetryValue, delay := 0, date := 784111777 } := by
  cases narrow <;> decide +kernel

/-- And the text of a header makes the program read outside of it. -/
theorem C134_caller_safe_false : ¬ ∀ hs, (retryAfter true hs).isSome = true := by
  intro h
  have := h [⟨[82, 101, 116, 114, 121, 45, 65, 102, 116, 101, 114], [77, 111, 110, 32, 49, 58, 50, 58, 51]⟩]
  revert this
  decide +kernel

end Verif.Date
