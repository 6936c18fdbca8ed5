import Verif.Model.Session
import Verif.Lemmas.Transport
/-
The two transports as links of a handle, on a bus with arbitrary behaviour.
-/
namespace Mbus
open Spec

/-- TCP gateway or serial line (mbus-protocol-aux.c:1504-1599: which functions a context installs). -/
inductive Kind where
  | tcp
  | serial
  deriving DecidableEq, Repr

/-- Everything the rest of the world decides: what arrives after a transmission (given all transmissions so far), the
uninitialised stack bytes, the result of `write` and whether the serial descriptor is a terminal. -/
structure Env where
  respond : List (List Byte) → List Ev
  junk : Nat → Byte
  wret : List (List Byte) → Nat → Int
  tty : Bool

/-- What the descriptor will still deliver, and the byte strings handed to `write` so far. -/
structure Bus where
  script : List Ev
  sent : List (List Byte)

/-- `handle->recv` for the two kinds of handles. -/
def kindRecv (k : Kind) (tty : Bool) (es : List Ev) (f : Frame) : C RecvOut :=
  match k with
  | .tcp => tcpRecv es f
  | .serial => serialRecv tty es f

theorem feeds_weight {skip : Ev} {k : Nat} {es es1 : List Ev} {bs : List Byte} (h : Feeds skip k es bs es1) :
    evWeight es1 ≤ evWeight es ∧ (bs ≠ [] → evWeight es1 < evWeight es) := by
  induction h with
  | done => exact ⟨Nat.le_refl _, fun h => absurd rfl h⟩
  | @skip k es bs es' h1 h2 ih =>
    have : evWeight es < evWeight (skip :: es) := by cases skip <;> simp only [evWeight] <;> omega
    exact ⟨by omega, fun h => by have := ih.2 h; omega⟩
  | whole c h1 h2 ih => simp only [evWeight]; exact ⟨by omega, fun _ => by omega⟩
  | part c d es h1 h2 =>
    have := List.length_pos_iff.mpr h1
    simp only [evWeight, List.length_append]; exact ⟨by omega, fun _ => by omega⟩

theorem evWeight_append (a b : List Ev) : evWeight (a ++ b) = evWeight a + evWeight b := by
  induction a with
  | nil => simp [evWeight]
  | cons e a ih => cases e <;> simp only [List.cons_append, evWeight, ih] <;> omega

theorem kindRecv_weight (k : Kind) (tty : Bool) (es : List Ev) (f : Frame) :
    ∃ out, kindRecv k tty es f = .ok out ∧ evWeight out.rest ≤ evWeight es ∧
      (out.code = RECV_OK ∨ out.code = RECV_INVALID → evWeight out.rest < evWeight es) := by
  have hcons : ∀ e (r : List Ev), evWeight r ≤ evWeight (e :: r) := by
    intro e r; cases e <;> simp only [evWeight] <;> omega
  cases k with
  | tcp =>
    obtain ⟨out, more, k, es1, h1, h2, _, h4⟩ := tcp_sound (evWeight es) es [] f (Nat.le_refl _) (.inl rfl)
    refine ⟨out, h1, ?_⟩
    have hw := feeds_weight h2
    have no : ∀ {P : Prop} {c : Int}, out.code = c → c ≠ RECV_OK → c ≠ RECV_INVALID → (out.code = RECV_OK ∨ out.code = RECV_INVALID → P) := by
      intro P c hc a b h; rw [hc] at h; exact absurd h (by simp [a, b])
    rcases h4 with ⟨_, a, b, _⟩ | ⟨_, a, b, _⟩ | ⟨_, _, j, ⟨c, a, b⟩ | ⟨c, a⟩ | ⟨c, a⟩ | ⟨c, a⟩⟩
    · rw [b]; exact ⟨hw.1, fun _ => hw.2 a⟩
    · rw [b]; exact ⟨hw.1, fun _ => hw.2 a⟩
    · rw [b]; exact ⟨Nat.zero_le _, no c (by decide) (by decide)⟩
    all_goals
      refine ⟨?_, no c (by decide) (by decide)⟩
      rw [a, evWeight_append] at hw
      have := hw.1
      simp only [evWeight] at this
      omega
  | serial =>
    cases tty with
    | false => exact ⟨_, rfl, Nat.le_refl _, by rintro (h | h) <;> exact absurd h (by show ¬ RECV_ERROR = _; decide)⟩
    | true =>
      obtain ⟨out, more, k, es1, h1, h2, _, h4⟩ := serial_sound _ es [] f 0 (Nat.le_refl _) (.inl rfl) (by omega)
      refine ⟨out, h1, ?_⟩
      have hw := feeds_weight h2
      have no : ∀ {P : Prop} {c : Int}, out.code = c → c ≠ RECV_OK → c ≠ RECV_INVALID → (out.code = RECV_OK ∨ out.code = RECV_INVALID → P) := by
        intro P c hc a b h; rw [hc] at h; exact absurd h (by simp [a, b])
      rcases h4 with ⟨_, a, _, b, _⟩ | ⟨_, a, _, b, _⟩ | ⟨_, a, _, _, j, ⟨_, b⟩ | ⟨_, _, b⟩⟩ | ⟨c, _, _, a | ⟨_, a⟩⟩ | ⟨c, _, _, j, e, _, _, a⟩
      · rw [b]; exact ⟨hw.1, fun _ => hw.2 a⟩
      · rw [b]; exact ⟨hw.1, fun _ => hw.2 a⟩
      · rw [b, evWeight_append] at hw
        have := hw.2 (by simpa using a)
        exact ⟨by omega, fun _ => by omega⟩
      · have := hw.2 (by simpa using a)
        rw [b]; simp only [evWeight]; exact ⟨by omega, fun _ => by omega⟩
      · refine ⟨?_, no c (by decide) (by decide)⟩
        have := hcons (.data []) out.rest
        rw [← a] at this
        omega
      · rw [a]; exact ⟨Nat.zero_le _, no c (by decide) (by decide)⟩
      · refine ⟨?_, no c (by decide) (by decide)⟩
        rw [a, evWeight_append] at hw
        have := hcons e out.rest
        omega

/-- The link of a handle (mbus-protocol-aux.c:1504-1599): the `send` and `recv` functions of its transport on the bus `env`. -/
def busLink (k : Kind) (env : Env) : Link Bus where
  send b f := do
    let (r, f, w) ← sendFrame (match k with | .tcp => true | .serial => env.tty) env.junk (env.wret b.sent) f
    match w with
    | none => .ok (r, f, b)
    | some bytes => .ok (r, f, { script := b.script ++ env.respond (b.sent ++ [bytes]), sent := b.sent ++ [bytes] })
  recv b f := do
    let out ← kindRecv k env.tty b.script f
    .ok (out.code, out.frame, { b with script := out.rest })
  pending b := evWeight b.script
  recv_le := by
    intro s f c f' s' h
    obtain ⟨out, h1, h2, _⟩ := kindRecv_weight k env.tty s.script f
    rw [h1] at h
    simp only [ok_bind, Except.ok.injEq, Prod.mk.injEq] at h
    obtain ⟨_, _, rfl⟩ := h
    exact h2
  recv_lt := by
    intro s f c f' s' h hc
    obtain ⟨out, h1, _, h3⟩ := kindRecv_weight k env.tty s.script f
    rw [h1] at h
    simp only [ok_bind, Except.ok.injEq, Prod.mk.injEq] at h
    obtain ⟨rfl, _, rfl⟩ := h
    exact h3 hc

end Mbus
