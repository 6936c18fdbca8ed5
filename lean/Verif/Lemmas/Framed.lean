import Verif.Lemmas.Fails
import Verif.Model.Session
/- a frame that was received has the start and stop characters of its type -/
namespace Mbus
open Spec

/-- the start and stop characters of the frame are those of its type -/
def Framed (f : Frame) : Prop :=
  (f.type = 1 → f.start1 = 0xE5) ∧ (f.type = 2 → f.start1 = 0x10 ∧ f.stop = 0x16) ∧
  (f.type = 3 ∨ f.type = 4 → f.start1 = 0x68 ∧ f.start2 = 0x68 ∧ f.stop = 0x16)

/-- what parsing that accepts makes true -/
def ParseOk (P : Frame → Prop) : Prop := ∀ f buf n f', mbusParse f buf n = .ok (0, f') → P f'

theorem verify_framed (f : Frame) (h : frameVerify f = .ok 0) (ht : f.type ≠ TYPE_ACK) : Framed f := by
  unfold frameVerify at h
  simp only at h
  rw [if_neg ht] at h
  have h1 : f.type ≠ 1 := ht
  split at h
  · next h2 =>
    have h2 : f.type = 2 := h2
    split at h
    · simp at h
    next hs =>
    split at h
    · simp at h
    split at h
    · simp at h
    next he =>
    refine ⟨fun e => absurd e h1, fun _ => ⟨Classical.not_not.mp hs, Classical.not_not.mp he⟩, fun e => ?_⟩
    rw [h2] at e
    rcases e with e | e <;> cases e
  · next hn2 =>
    split at h
    · split at h
      · simp at h
      next hs =>
      split at h
      · simp at h
      split at h
      · simp at h
      split at h
      · simp at h
      split at h
      · simp at h
      next he =>
      refine ⟨fun e => absurd e h1, fun e => absurd e hn2, fun _ => ?_⟩
      exact ⟨Classical.not_not.mp fun e => hs (.inl e), Classical.not_not.mp fun e => hs (.inr e), Classical.not_not.mp he⟩
    · simp at h

theorem parse_framed : ParseOk Framed := by
  intro f buf n f' h
  unfold mbusParse at h
  by_cases h0 : n = 0
  · rw [if_pos h0] at h; simp at h
  rw [if_neg h0, bind_eq_ok] at h
  obtain ⟨d0, _, h⟩ := h
  by_cases h1 : d0 = ACK_START
  · rw [if_pos h1] at h
    cases h
    exact ⟨fun _ => h1, (fun e => absurd e (by simp [TYPE_ACK])), (fun e => absurd e (by simp [TYPE_ACK]))⟩
  rw [if_neg h1] at h
  by_cases h2 : d0 = SHORT_START
  · rw [if_pos h2] at h
    by_cases h3 : n < 5
    · rw [if_pos h3] at h
      simp only [Except.ok.injEq, Prod.mk.injEq] at h
      omega
    rw [if_neg h3] at h
    by_cases h4 : n ≠ 5
    · rw [if_pos h4] at h; simp at h
    rw [if_neg h4] at h
    rw [bind_eq_ok] at h
    obtain ⟨_, _, h⟩ := h
    rw [bind_eq_ok] at h
    obtain ⟨_, _, h⟩ := h
    rw [bind_eq_ok] at h
    obtain ⟨_, _, h⟩ := h
    rw [bind_eq_ok] at h
    obtain ⟨_, _, h⟩ := h
    rw [bind_eq_ok] at h
    obtain ⟨v, hv, h⟩ := h
    by_cases hv0 : v ≠ 0
    · rw [if_pos hv0] at h; simp at h
    rw [if_neg hv0] at h
    rw [Classical.not_not.mp hv0] at hv
    cases h
    exact verify_framed _ hv (by simp [TYPE_SHORT, TYPE_ACK])
  rw [if_neg h2] at h
  split at h
  · split at h
    · simp only [Except.ok.injEq, Prod.mk.injEq] at h
      omega
    rw [bind_eq_ok] at h
    obtain ⟨_, _, h⟩ := h
    rw [bind_eq_ok] at h
    obtain ⟨_, _, h⟩ := h
    simp only at h
    split at h
    · simp at h
    split at h
    · simp at h
    split at h
    · simp only [Except.ok.injEq, Prod.mk.injEq] at h
      omega
    split at h
    · simp at h
    rw [bind_eq_ok] at h
    obtain ⟨_, _, h⟩ := h
    rw [bind_eq_ok] at h
    obtain ⟨_, _, h⟩ := h
    rw [bind_eq_ok] at h
    obtain ⟨_, _, h⟩ := h
    rw [bind_eq_ok] at h
    obtain ⟨_, _, h⟩ := h
    rw [bind_eq_ok] at h
    obtain ⟨_, _, h⟩ := h
    rw [bind_eq_ok] at h
    obtain ⟨_, _, h⟩ := h
    rw [bind_eq_ok] at h
    obtain ⟨_, _, h⟩ := h
    rw [bind_eq_ok] at h
    obtain ⟨v, hv, h⟩ := h
    by_cases hv0 : v ≠ 0
    · rw [if_pos hv0] at h; simp at h
    rw [if_neg hv0] at h
    rw [Classical.not_not.mp hv0] at hv
    cases h
    exact verify_framed _ hv (by show (if _ then _ else _) ≠ _; split <;> decide)
  · simp at h

theorem tcpLoop_accepts {P : Frame → Prop} (hP : ParseOk P) (n : Nat) : ∀ (es : List Ev) (f : Frame) (buff : List Byte) (len m : Nat)
    (out : RecvOut), evWeight es ≤ n → tcpLoop es f buff len m = .ok out → out.code = RECV_OK → P out.frame := by
  induction n with
  | zero =>
    intro es f buff len m out hw h hc
    cases es with
    | nil =>
      rw [tcpLoop] at h
      split at h
      · cases h; cases hc
      · simp only [readEv] at h
        cases h; cases hc
    | cons e es => cases e <;> simp only [evWeight] at hw <;> omega
  | succ n ih =>
    intro es f buff len m out hw h hc
    rw [tcpLoop] at h
    split at h
    · cases h; cases hc
    · split at h
      · cases h; cases hc
      · next he => exact ih _ _ _ _ _ _ (by have := readEv_weight _ _ _ _ he; omega) h hc
      · cases h; cases hc
      · cases h; cases hc
      · next bs es' he =>
        split at h
        · cases h; cases hc
        · cases hst : store buff len bs with
          | error e => rw [hst] at h; cases h
          | ok buff' =>
            rw [hst] at h
            simp only at h
            cases hp : mbusParse f buff' (len + bs.length) with
            | error e => rw [hp] at h; cases h
            | ok q =>
              obtain ⟨r, f'⟩ := q
              rw [hp] at h
              simp only at h
              split at h
              · exact ih _ _ _ _ _ _ (by have := readEv_weight _ _ _ _ he; omega) h hc
              · next hr =>
                cases h
                by_cases hn : r < 0
                · rw [if_pos hn] at hc; cases hc
                · have : r = 0 := by omega
                  subst this
                  exact hP _ _ _ _ hp

theorem serialTail_accepts (f : Frame) (es : List Ev) (buff : List Byte) (len : Nat) (r : Int) (h : (serialTail f es buff len r).code = RECV_OK) : r = 0 := by
  unfold serialTail at h
  split at h
  · cases h
  · by_cases hr : r ≠ 0
    · simp only [hr, ne_eq, not_false_eq_true, if_true] at h; cases h
    · exact Classical.not_not.mp hr

theorem serialLoop_accepts {P : Frame → Prop} (hP : ParseOk P) (n : Nat) : ∀ (es : List Ev) (f : Frame) (buff : List Byte)
    (len m to : Nat) (out : RecvOut), evWeight es + (3 - to) ≤ n → serialLoop es f buff len m to = .ok out → out.code = RECV_OK →
    P out.frame := by
  induction n with
  | zero =>
    intro es f buff len m to out hw h hc
    cases es with
    | nil =>
      rw [serialLoop] at h
      split at h
      · cases h; cases hc
      · simp only [readEv] at h
        rw [if_pos (by omega)] at h
        cases h
        have := serialTail_accepts _ _ _ _ _ hc
        omega
    | cons e es => cases e <;> simp only [evWeight] at hw <;> omega
  | succ n ih =>
    intro es f buff len m to out hw h hc
    rw [serialLoop] at h
    split at h
    · cases h; cases hc
    · split at h
      · next es' he =>
        have hes : es' = es := by
          cases es with
          | nil => simp [readEv] at he; exact he
          | cons a es => cases a <;> simp [readEv] at he
        split at h
        · cases h
          have := serialTail_accepts _ _ _ _ _ hc
          omega
        · next hto =>
          cases hp : mbusParse f buff len with
          | error e => rw [hp] at h; cases h
          | ok q =>
            obtain ⟨r, f'⟩ := q
            rw [hp] at h
            simp only at h
            by_cases hr : r > 0
            · rw [if_pos hr] at h
              exact ih _ _ _ _ _ _ _ (by rw [hes]; omega) h hc
            · rw [if_neg hr] at h
              cases h
              have := serialTail_accepts _ _ _ _ _ hc
              subst this
              rw [serialTail_frame]
              exact hP _ _ _ _ hp
      · next bs es' he =>
        have hlt := readEv_weight _ _ _ _ he
        simp only at h
        generalize hto : (if bs.length = 0 then to + 1 else to) = to' at h
        have hto' : to ≤ to' := by rw [← hto]; split <;> omega
        split at h
        · cases h
          have := serialTail_accepts _ _ _ _ _ hc
          omega
        · cases hst : store buff len bs with
          | error e => rw [hst] at h; cases h
          | ok buff' =>
            rw [hst] at h
            simp only at h
            cases hp : mbusParse f buff' (len + bs.length) with
            | error e => rw [hp] at h; cases h
            | ok q =>
              obtain ⟨r, f'⟩ := q
              rw [hp] at h
              simp only at h
              by_cases hr : r > 0
              · rw [if_pos hr] at h
                exact ih _ _ _ _ _ _ _ (by omega) h hc
              · rw [if_neg hr] at h
                cases h
                have := serialTail_accepts _ _ _ _ _ hc
                subst this
                rw [serialTail_frame]
                exact hP _ _ _ _ hp
      · cases h; cases hc

theorem bus_recv_accepts {P : Frame → Prop} (hP : ParseOk P) (k : Kind) (env : Env) (b : Bus) (f : Frame) (f' : Frame) (b' : Bus)
    (h : (busLink k env).recv b f = .ok (RECV_OK, f', b')) : P f' := by
  change (kindRecv k env.tty b.script f >>= _) = _ at h
  rw [bind_eq_ok] at h
  obtain ⟨out, h1, h2⟩ := h
  simp only [Except.ok.injEq, Prod.mk.injEq] at h2
  obtain ⟨hc, rfl, _⟩ := h2
  cases k with
  | tcp => exact tcpLoop_accepts hP _ _ _ _ _ _ _ (Nat.le_refl _) h1 hc
  | serial =>
    change serialRecv env.tty b.script f = .ok out at h1
    unfold serialRecv at h1
    cases ht : env.tty with
    | true => rw [ht] at h1; exact serialLoop_accepts hP _ _ _ _ _ _ _ _ (Nat.le_refl _) h1 hc
    | false => rw [ht] at h1; cases h1; cases hc

theorem recvFrame_accepts {P : Frame → Prop} (hP : ParseOk P) (k : Kind) (env : Env) (purge : Int) (b : Bus) (f : Frame) (f' : Frame) (b' : Bus)
    (h : recvFrame (busLink k env) purge b f = .ok (RECV_OK, f', b')) : P f' := by
  unfold recvFrame at h
  rw [bind_eq_ok] at h
  obtain ⟨⟨r, g, t⟩, h1, h2⟩ := h
  have once : (Except.ok (r, g, t) : C (Int × Frame × Bus)) = .ok (RECV_OK, f', b') → P f' := fun h => by
    simp only [Except.ok.injEq, Prod.mk.injEq] at h
    obtain ⟨rfl, rfl, rfl⟩ := h
    exact bus_recv_accepts hP k env _ _ _ _ h1
  simp only at h2
  split at h2
  · split at h2
    · exact bus_recv_accepts hP k env _ _ _ _ h2
    · exact once h2
  · split at h2
    · split at h2
      · exact bus_recv_accepts hP k env _ _ _ _ h2
      · exact once h2
    · exact once h2

/-- every telegram of a successful readout was accepted by a receive -/
theorem sendrecvLoop_chain {σ : Type} {P : Frame → Prop} (o : Ops σ) (ho : ∀ s f g s', o.recv s f = .ok (RECV_OK, g, s') → P g) (max mf : Int)
    (s : σ) (req : Frame) (done : List Frame) (cur : Frame) (x : FrameData) (p : RecPtr) (retry count : Int) (out : SrOut σ) (hd : ∀ g ∈ done, P g)
    (h : sendrecvLoop o max mf s req done cur x p retry count = .ok out) (hc : out.code = 0) : ∀ g ∈ out.chain, P g := by
  fun_induction sendrecvLoop o max mf s req done cur x p retry count with
  | case1 => cases h; cases hc
  | _ => first
    | (cases h; done)
    | (cases h; cases hc; done)
    | (rename_i ih; exact ih hd h)
    | (rename_i hr ih
       refine ih (fun g hg => ?_) h
       rcases List.mem_append.mp hg with hg | hg
       · exact hd g hg
       · rw [List.mem_singleton] at hg
         subst hg
         exact ho _ _ _ _ hr)
    | (rename_i hr
       cases h
       intro g hg
       rcases List.mem_append.mp hg with hg | hg
       · exact hd g hg
       · rw [List.mem_singleton] at hg
         subst hg
         exact ho _ _ _ _ hr)

theorem sendrecv_chain {σ : Type} {P : Frame → Prop} (o : Ops σ) (ho : ∀ s f g s', o.recv s f = .ok (RECV_OK, g, s') → P g) (st : Settings)
    (s : σ) (a : Int) (reply : Frame) (mf : Int) (out : SrOut σ) (h : sendrecvRequest o st s a reply mf = .ok out) (hc : out.code = 0) :
    ∀ g ∈ out.chain, P g := by
  unfold sendrecvRequest at h
  split at h
  · cases h; cases hc
  · exact sendrecvLoop_chain o ho _ _ _ _ _ _ _ _ _ _ _ (by simp) h hc

end Mbus
