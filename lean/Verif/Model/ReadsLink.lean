import Verif.Lemmas.Reads
/-
The handles of the two transports with a count of the `read` system calls.
-/
namespace Mbus

/-- mbus-protocol-aux.c:1714-1745 with mbus-tcp.c and mbus-serial.c: `busLink` (Model/Bus) with the number of reads made so far. -/
def readsLink (k : Kind) (env : Env) : Link (Bus × Nat) where
  send b f := do
    let (r, f, s) ← (busLink k env).send b.1 f
    .ok (r, f, s, b.2)
  recv b f := do
    let (out, n) ← kindRecvR k env.tty b.1.script f
    .ok (out.code, out.frame, { b.1 with script := out.rest }, b.2 + n)
  pending b := evWeight b.1.script
  recv_le := by
    intro s f c f' s' h
    obtain ⟨⟨out, m⟩, h1, h⟩ := bind_eq_ok.mp h
    obtain ⟨out', h2, h3, _⟩ := kindRecv_weight k env.tty s.1.script f
    rw [kindRecvR_recv h1] at h2
    cases h2
    cases h
    exact h3
  recv_lt := by
    intro s f c f' s' h hc
    obtain ⟨⟨out, m⟩, h1, h⟩ := bind_eq_ok.mp h
    obtain ⟨out', h2, _, h3⟩ := kindRecv_weight k env.tty s.1.script f
    rw [kindRecvR_recv h1] at h2
    cases h2
    cases h
    exact h3 hc

end Mbus
