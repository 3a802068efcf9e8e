import Verif.DtlsTimerModel

/-!
# C04: the DTLS retransmission timer doubles and is capped at 60 seconds
-/
namespace Verif.DtlsTimer

theorem callback_zero (t : Int) (h1 : 0 ≤ t) (h2 : t ≤ 60) :
    timerCallback t 0 = some (min 60000000 (t.toNat * 1000000)) := by
  unfold timerCallback toUInt32
  simp only [if_true]
  rw [if_pos (by omega)]
  congr 1
  split <;> omega

theorem callback_pos (t : Int) (n : Nat) (h1 : 0 < n) (h2 : n ≤ 60000000) :
    timerCallback t n = some (min 60000000 (2 * n)) := by
  unfold timerCallback toUInt32 toInt32
  rw [if_neg (by omega), Nat.mod_eq_of_lt (by omega : 2 * n < 4294967296)]
  congr 1
  simp only
  split <;> split <;> first | omega | (congr 1; omega)

/-- C04: for every timeout the registration code installs the callback with
(1..60 seconds), the `k`-th timer value is `min (60 s) (t * 2^k)`, in
microseconds, for every number of retransmissions. -/
theorem C04_timer_value (t : Int) (h1 : 1 ≤ t) (h2 : t ≤ 60) (k : Nat) :
    timerSeq t k = some (min 60000000 (t.toNat * 2 ^ k * 1000000)) := by
  induction k with
  | zero => rw [timerSeq, callback_zero t (by omega) h2]; simp
  | succ k ih =>
    have hp : 0 < 2 ^ k := Nat.two_pow_pos k
    have hq : 0 < t.toNat * 2 ^ k := Nat.mul_pos (by omega) hp
    rw [timerSeq, ih, Option.bind_some, callback_pos t _ (by omega) (by omega)]
    have : t.toNat * 2 ^ (k + 1) = 2 * (t.toNat * 2 ^ k) := by
      rw [Nat.pow_succ, ← Nat.mul_assoc, Nat.mul_comm]
    rw [this]
    congr 1
    omega

/-- C04: the timer never exceeds 60 seconds and never decreases. -/
theorem C04_timer_capped_monotone (t : Int) (h1 : 1 ≤ t) (h2 : t ≤ 60) (k : Nat) :
    ∃ a b, timerSeq t k = some a ∧ timerSeq t (k + 1) = some b ∧ a ≤ b ∧ b ≤ 60000000 ∧
      0 < a := by
  refine ⟨_, _, C04_timer_value t h1 h2 k, C04_timer_value t h1 h2 (k + 1), ?_, by omega, ?_⟩
  · have : t.toNat * 2 ^ (k + 1) = 2 * (t.toNat * 2 ^ k) := by
      rw [Nat.pow_succ, ← Nat.mul_assoc, Nat.mul_comm]
    omega
  · have hq : 0 < t.toNat * 2 ^ k := Nat.mul_pos (by omega) (Nat.two_pow_pos k)
    omega

/-- C04: after any sequence of setter calls, starting from the default 0, the
stored value is 0 (callback not registered) or in the range for which
`C04_timer_value` holds. -/
theorem C04_setter_range (calls : List Int) :
    let t := calls.foldl (fun s c => (setTimeout s c).1) 0
    t = 0 ∨ (2 ≤ t ∧ t ≤ 60) := by
  suffices H : ∀ (s : Int), (s = 0 ∨ (2 ≤ s ∧ s ≤ 60)) →
      (calls.foldl (fun s c => (setTimeout s c).1) s = 0 ∨
       (2 ≤ calls.foldl (fun s c => (setTimeout s c).1) s ∧
        calls.foldl (fun s c => (setTimeout s c).1) s ≤ 60)) from H 0 (Or.inl rfl)
  induction calls with
  | nil => intro s hs; simpa using hs
  | cons c cs ih =>
    intro s hs
    apply ih
    simp only [setTimeout]
    split <;> simp only <;> omega

example : timerSeq 7 3 = some 56000000 ∧ timerSeq 7 4 = some 60000000 := by decide
example : (1 : Int) ≤ 7 ∧ (7 : Int) ≤ 60 := by decide
example : [5, 61, -3].foldl (fun s c => (setTimeout s c).1) 0 = 5 := by decide

end Verif.DtlsTimer
