/-!
# Model of the DTLS handshake timer

Source: `/repo/src/est/est_server_coap.c` lines 2672-2701 (callback), 2740-2748
(registration) and 3025-3056 (setter); limits in `est.h` lines 382-384.
-/
namespace Verif.DtlsTimer

/-- Conversion of an `unsigned int` value to `int` (32-bit two's complement).  This is
the assignment at `est_server_coap.c` line 2690. -/
def toInt32 (n : Nat) : Int :=
  let m := n % 4294967296
  if m < 2147483648 then (m : Int) else (m : Int) - 4294967296

/-- Conversion of an `int` value to `unsigned int`.  This is the return at
`est_server_coap.c` line 2700. -/
def toUInt32 (i : Int) : Nat := (i % 4294967296).toNat

/-- `est_coap_dtls_timer_callback`, `est_server_coap.c` lines 2680-2701.
`timer` is `est_ctx->dtls_handshake_timer`, `incoming` the unsigned argument.
`none` is undefined behaviour: signed overflow of `timer*1000*1000`. -/
def timerCallback (timer : Int) (incoming : Nat) : Option Nat :=
  if incoming = 0 then
    let v := timer * 1000 * 1000
    if -2147483648 ≤ v ∧ v ≤ 2147483647 then
      some (toUInt32 (if v > 60000000 then 60000000 else v))
    else none
  else
    let v := toInt32 (2 * incoming)
    some (toUInt32 (if v > 60000000 then 60000000 else v))

/-- `est_server_set_dtls_handshake_timeout`, `est_server_coap.c` lines 3025-3056, as a function from
the stored value to the new stored value; the flag is `true` for
`EST_ERR_NONE`. -/
def setTimeout (old timeout : Int) : Int × Bool :=
  if timeout ≠ 0 ∧ (timeout < 2 ∨ timeout > 60) then (old, false) else (timeout, true)

/-- OpenSSL calls the registered callback first with 0 and then with the value
it got last (documented in the comment at `est_server_coap.c` lines 2672-2679).  `timerSeq t k` is
the value returned by call number `k`. -/
def timerSeq (timer : Int) : Nat → Option Nat
  | 0 => timerCallback timer 0
  | k + 1 => (timerSeq timer k).bind (timerCallback timer)

end Verif.DtlsTimer
