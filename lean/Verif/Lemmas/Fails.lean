import Verif.Lemmas.Handle
/- what a receive that fails leaves in the frame object -/
namespace Mbus
open Spec

/-- `P` survives parsing that does not accept -/
def ParseFails (P : Frame → Prop) : Prop := ∀ f buf n r f', P f → mbusParse f buf n = .ok (r, f') → r ≠ 0 → P f'

theorem tcpLoop_fails {P : Frame → Prop} (hP : ParseFails P) (n : Nat) : ∀ (es : List Ev) (f : Frame) (buff : List Byte) (len m : Nat)
    (out : RecvOut), evWeight es ≤ n → P f → tcpLoop es f buff len m = .ok out → out.code ≠ RECV_OK → P out.frame := by
  induction n with
  | zero =>
    intro es f buff len m out hw hf h hc
    cases es with
    | nil =>
      rw [tcpLoop] at h
      split at h
      · cases h; exact hf
      · simp only [readEv] at h
        cases h; exact hf
    | cons e es => cases e <;> simp only [evWeight] at hw <;> omega
  | succ n ih =>
    intro es f buff len m out hw hf h hc
    rw [tcpLoop] at h
    split at h
    · cases h; exact hf
    · split at h
      · cases h; exact hf
      · next he => exact ih _ _ _ _ _ _ (by have := readEv_weight _ _ _ _ he; omega) hf h hc
      · cases h; exact hf
      · cases h; exact hf
      · next bs es' he =>
        split at h
        · cases h; exact hf
        · cases hst : store buff len bs with
          | error e => rw [hst] at h; cases h
          | ok buff' =>
            rw [hst] at h
            simp only at h
            cases hp : mbusParse f buff' (len + bs.length) with
            | error e => rw [hp] at h; cases h
            | ok q =>
              obtain ⟨r, f'⟩ := q
              rw [hp] at h
              simp only at h
              by_cases hr : r = 0
              · subst hr
                rw [if_neg (by decide)] at h
                cases h
                exact absurd rfl hc
              · have hf' := hP _ _ _ _ _ hf hp hr
                split at h
                · exact ih _ _ _ _ _ _ (by have := readEv_weight _ _ _ _ he; omega) hf' h hc
                · cases h; exact hf'

theorem serialTail_ok (f : Frame) (es : List Ev) (buff : List Byte) (len : Nat) (hl : len ≠ 0) :
    (serialTail f es buff len 0).code = RECV_OK := by
  unfold serialTail; rw [if_neg hl]; rfl

theorem parse_empty (f : Frame) (buff : List Byte) : mbusParse f buff 0 = .ok (-1, f) := by
  unfold mbusParse; rw [if_pos rfl]

theorem serialLoop_fails {P : Frame → Prop} (hP : ParseFails P) (n : Nat) : ∀ (es : List Ev) (f : Frame) (buff : List Byte)
    (len m to : Nat) (out : RecvOut), evWeight es + (3 - to) ≤ n → P f → serialLoop es f buff len m to = .ok out → out.code ≠ RECV_OK →
    P out.frame := by
  have tail : ∀ (f f' : Frame) (es : List Ev) (buff : List Byte) (len : Nat) (r : Int), P f → mbusParse f buff len = .ok (r, f') →
      (serialTail f' es buff len r).code ≠ RECV_OK → P f' := by
    intro f f' es buff len r hf hp hc
    by_cases hr : r = 0
    · subst hr
      by_cases hl : len = 0
      · subst hl; rw [parse_empty] at hp; simp at hp
      · exact absurd (serialTail_ok f' es buff len hl) hc
    · exact hP _ _ _ _ _ hf hp hr
  induction n with
  | zero =>
    intro es f buff len m to out hw hf h hc
    cases es with
    | nil =>
      rw [serialLoop] at h
      split at h
      · cases h; exact hf
      · simp only [readEv] at h
        rw [if_pos (by omega)] at h
        cases h; rw [serialTail_frame]; exact hf
    | cons e es => cases e <;> simp only [evWeight] at hw <;> omega
  | succ n ih =>
    intro es f buff len m to out hw hf h hc
    rw [serialLoop] at h
    split at h
    · cases h; exact hf
    · split at h
      · next es' he =>
        have hes : es' = es := by
          cases es with
          | nil => simp [readEv] at he; exact he
          | cons a es => cases a <;> simp [readEv] at he
        split at h
        · cases h; rw [serialTail_frame]; exact hf
        · next hto =>
          cases hp : mbusParse f buff len with
          | error e => rw [hp] at h; cases h
          | ok q =>
            obtain ⟨r, f'⟩ := q
            rw [hp] at h
            simp only at h
            by_cases hr : r > 0
            · rw [if_pos hr] at h
              exact ih _ _ _ _ _ _ _ (by rw [hes]; omega) (hP _ _ _ _ _ hf hp (by omega)) h hc
            · rw [if_neg hr] at h
              cases h; rw [serialTail_frame]; exact tail _ _ _ _ _ _ hf hp hc
      · next bs es' he =>
        have hlt := readEv_weight _ _ _ _ he
        simp only at h
        generalize hto : (if bs.length = 0 then to + 1 else to) = to' at h
        have hto' : to ≤ to' := by rw [← hto]; split <;> omega
        split at h
        · cases h; rw [serialTail_frame]; exact hf
        · cases hst : store buff len bs with
          | error e => rw [hst] at h; cases h
          | ok buff' =>
            rw [hst] at h
            simp only at h
            cases hp : mbusParse f buff' (len + bs.length) with
            | error e => rw [hp] at h; cases h
            | ok q =>
              obtain ⟨r, f'⟩ := q
              rw [hp] at h
              simp only at h
              by_cases hr : r > 0
              · rw [if_pos hr] at h
                exact ih _ _ _ _ _ _ _ (by omega) (hP _ _ _ _ _ hf hp (by omega)) h hc
              · rw [if_neg hr] at h
                cases h; rw [serialTail_frame]; exact tail _ _ _ _ _ _ hf hp hc
      · cases h; exact hf

theorem bus_recv_fails {P : Frame → Prop} (hP : ParseFails P) (k : Kind) (env : Env) (b : Bus) (f : Frame) (c : Int) (f' : Frame) (b' : Bus)
    (hf : P f) (h : (busLink k env).recv b f = .ok (c, f', b')) (hc : c ≠ RECV_OK) : P f' := by
  change (kindRecv k env.tty b.script f >>= _) = _ at h
  rw [bind_eq_ok] at h
  obtain ⟨out, h1, h2⟩ := h
  simp only [Except.ok.injEq, Prod.mk.injEq] at h2
  obtain ⟨rfl, rfl, _⟩ := h2
  cases k with
  | tcp => exact tcpLoop_fails hP _ _ _ _ _ _ _ (Nat.le_refl _) hf h1 hc
  | serial =>
    change serialRecv env.tty b.script f = .ok out at h1
    unfold serialRecv at h1
    cases ht : env.tty with
    | true => rw [ht] at h1; exact serialLoop_fails hP _ _ _ _ _ _ _ _ (Nat.le_refl _) hf h1 hc
    | false => rw [ht] at h1; cases h1; exact hf

/-- a parse that does not accept never makes an acknowledge out of the frame object -/
theorem parse_no_ack : ParseFails fun f => f.type ≠ TYPE_ACK := by
  intro f buf n r f' hf h hr
  unfold mbusParse at h
  by_cases h0 : n = 0
  · rw [if_pos h0] at h; cases h; exact hf
  rw [if_neg h0, bind_eq_ok] at h
  obtain ⟨d0, _, h⟩ := h
  by_cases h1 : d0 = ACK_START
  · rw [if_pos h1] at h; cases h; exact absurd rfl hr
  rw [if_neg h1] at h
  by_cases h2 : d0 = SHORT_START
  · rw [if_pos h2] at h
    by_cases h3 : n < 5
    · rw [if_pos h3] at h; cases h; exact hf
    rw [if_neg h3] at h
    by_cases h4 : n ≠ 5
    · rw [if_pos h4] at h; cases h; exact hf
    rw [if_neg h4] at h
    rw [bind_eq_ok] at h
    obtain ⟨_, _, h⟩ := h
    rw [bind_eq_ok] at h
    obtain ⟨_, _, h⟩ := h
    rw [bind_eq_ok] at h
    obtain ⟨_, _, h⟩ := h
    rw [bind_eq_ok] at h
    obtain ⟨_, _, h⟩ := h
    rw [bind_eq_ok] at h
    obtain ⟨v, _, h⟩ := h
    by_cases hv : v ≠ 0
    · rw [if_pos hv] at h; cases h; show ¬ TYPE_SHORT = TYPE_ACK; decide
    · rw [if_neg hv] at h; cases h; show ¬ TYPE_SHORT = TYPE_ACK; decide
  rw [if_neg h2] at h
  by_cases h3 : d0 = LONG_START
  · rw [if_pos h3] at h
    by_cases h4 : n < 3
    · rw [if_pos h4] at h; cases h; exact hf
    rw [if_neg h4] at h
    rw [bind_eq_ok] at h
    obtain ⟨l1, _, h⟩ := h
    rw [bind_eq_ok] at h
    obtain ⟨l2, _, h⟩ := h
    by_cases h5 : l1 < 3
    · rw [if_pos h5] at h; cases h; exact hf
    rw [if_neg h5] at h
    by_cases h6 : l1 ≠ l2
    · rw [if_pos h6] at h; cases h; exact hf
    rw [if_neg h6] at h
    by_cases h7 : n < 6 + l1.toNat
    · simp only [if_pos h7] at h; cases h; exact hf
    simp only [if_neg h7] at h
    by_cases h8 : n > 6 + l1.toNat
    · rw [if_pos h8] at h; cases h; exact hf
    rw [if_neg h8] at h
    rw [bind_eq_ok] at h
    obtain ⟨_, _, h⟩ := h
    rw [bind_eq_ok] at h
    obtain ⟨_, _, h⟩ := h
    rw [bind_eq_ok] at h
    obtain ⟨_, _, h⟩ := h
    rw [bind_eq_ok] at h
    obtain ⟨_, _, h⟩ := h
    rw [bind_eq_ok] at h
    obtain ⟨_, _, h⟩ := h
    rw [bind_eq_ok] at h
    obtain ⟨_, _, h⟩ := h
    rw [bind_eq_ok] at h
    obtain ⟨_, _, h⟩ := h
    rw [bind_eq_ok] at h
    obtain ⟨v, _, h⟩ := h
    have ht : (if l1.toNat - 3 = 0 then TYPE_CONTROL else TYPE_LONG) ≠ TYPE_ACK := by split <;> decide
    by_cases hv : v ≠ 0
    · rw [if_pos hv] at h; cases h; exact ht
    · rw [if_neg hv] at h; cases h; exact ht
  · rw [if_neg h3] at h; cases h; exact hf

end Mbus
