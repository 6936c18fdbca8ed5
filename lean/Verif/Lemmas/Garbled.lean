import Verif.Lemmas.Chunks
import Verif.Spec.Scan
/- receiving garbage -/
namespace Mbus
open Spec

/-- the parser refuses these bytes, and only when it has seen all of them -/
structure Bad (target : List Byte) : Prop where
  neg : code target < 0
  pre : ∀ p q, target = p ++ q → q ≠ [] → Open p ∧ need p ≤ q.length

theorem cut_evs (n : Nat) (c : List Byte) (cs : List (List Byte)) (hc : Chunks (c :: cs)) :
    ∃ cs', cut n c (evs cs) = evs cs' ∧ Chunks cs' ∧ c.take n ++ cs'.flatten = c ++ cs.flatten := by
  unfold cut
  by_cases h : c.length ≤ n
  · rw [if_pos h]
    exact ⟨cs, rfl, fun x hx => hc x (by simp [hx]), by rw [List.take_of_length_le h]⟩
  · rw [if_neg h]
    refine ⟨c.drop n :: cs, rfl, ?_, by simp [← List.append_assoc]⟩
    intro x hx
    rcases List.mem_cons.mp hx with rfl | hx
    · simp; omega
    · exact hc x (by simp [hx])

/-- parsing an incomplete telegram leaves type and control of the frame object alone -/
theorem parse_partial (f : Frame) (buf : List Byte) (n : Nat) (r : Int) (f' : Frame) (h : mbusParse f buf n = .ok (r, f')) :
    (r > 0 → f'.type = f.type ∧ f'.control = f.control) ∧
    (r < 0 → (f'.type = f.type ∧ f'.control = f.control) ∨ rd buf 0 = .ok 0x10 ∨ (f'.type ≠ TYPE_ACK ∧ rd buf 4 = .ok f'.control)) := by
  unfold mbusParse at h
  by_cases h0 : n = 0
  · rw [if_pos h0] at h; cases h; exact ⟨fun _ => ⟨rfl, rfl⟩, fun _ => .inl ⟨rfl, rfl⟩⟩
  rw [if_neg h0, bind_eq_ok] at h
  obtain ⟨d0, hd0, h⟩ := h
  by_cases h1 : d0 = ACK_START
  · rw [if_pos h1] at h; cases h; exact ⟨fun h => absurd h (by decide), fun h => absurd h (by decide)⟩
  rw [if_neg h1] at h
  by_cases h2 : d0 = SHORT_START
  · rw [if_pos h2] at h
    subst h2
    refine ⟨fun hr => ?_, fun _ => .inr (.inl hd0)⟩
    by_cases h3 : n < 5
    · rw [if_pos h3] at h; cases h; exact ⟨rfl, rfl⟩
    rw [if_neg h3] at h
    by_cases h4 : n ≠ 5
    · rw [if_pos h4] at h; cases h; exact ⟨rfl, rfl⟩
    rw [if_neg h4] at h
    exfalso
    rw [bind_eq_ok] at h
    obtain ⟨_, _, h⟩ := h
    rw [bind_eq_ok] at h
    obtain ⟨_, _, h⟩ := h
    rw [bind_eq_ok] at h
    obtain ⟨_, _, h⟩ := h
    rw [bind_eq_ok] at h
    obtain ⟨_, _, h⟩ := h
    rw [bind_eq_ok] at h
    obtain ⟨v, _, h⟩ := h
    by_cases hv : v ≠ 0
    · rw [if_pos hv] at h; cases h; exact absurd hr (by decide)
    · rw [if_neg hv] at h; cases h; exact absurd hr (by decide)
  rw [if_neg h2] at h
  by_cases h3 : d0 = LONG_START
  · rw [if_pos h3] at h
    by_cases h4 : n < 3
    · rw [if_pos h4] at h; cases h; exact ⟨fun _ => ⟨rfl, rfl⟩, fun _ => .inl ⟨rfl, rfl⟩⟩
    rw [if_neg h4] at h
    rw [bind_eq_ok] at h
    obtain ⟨l1, _, h⟩ := h
    rw [bind_eq_ok] at h
    obtain ⟨l2, _, h⟩ := h
    by_cases h5 : l1 < 3
    · rw [if_pos h5] at h; cases h; exact ⟨fun _ => ⟨rfl, rfl⟩, fun _ => .inl ⟨rfl, rfl⟩⟩
    rw [if_neg h5] at h
    by_cases h6 : l1 ≠ l2
    · rw [if_pos h6] at h; cases h; exact ⟨fun _ => ⟨rfl, rfl⟩, fun _ => .inl ⟨rfl, rfl⟩⟩
    rw [if_neg h6] at h
    by_cases h7 : n < 6 + l1.toNat
    · simp only [if_pos h7] at h; cases h; exact ⟨fun _ => ⟨rfl, rfl⟩, fun _ => .inl ⟨rfl, rfl⟩⟩
    simp only [if_neg h7] at h
    by_cases h8 : n > 6 + l1.toNat
    · rw [if_pos h8] at h; cases h; exact ⟨fun _ => ⟨rfl, rfl⟩, fun _ => .inl ⟨rfl, rfl⟩⟩
    rw [if_neg h8] at h
    rw [bind_eq_ok] at h
    obtain ⟨_, _, h⟩ := h
    rw [bind_eq_ok] at h
    obtain ⟨c, hc, h⟩ := h
    rw [bind_eq_ok] at h
    obtain ⟨_, _, h⟩ := h
    rw [bind_eq_ok] at h
    obtain ⟨_, _, h⟩ := h
    rw [bind_eq_ok] at h
    obtain ⟨_, _, h⟩ := h
    rw [bind_eq_ok] at h
    obtain ⟨_, _, h⟩ := h
    rw [bind_eq_ok] at h
    obtain ⟨_, _, h⟩ := h
    rw [bind_eq_ok] at h
    obtain ⟨v, _, h⟩ := h
    have ht : (if l1.toNat - 3 = 0 then TYPE_CONTROL else TYPE_LONG) ≠ TYPE_ACK := by split <;> decide
    by_cases hv : v ≠ 0
    · rw [if_pos hv] at h; cases h; exact ⟨fun h => absurd h (by decide), fun _ => .inr (.inr ⟨ht, hc⟩)⟩
    · rw [if_neg hv] at h; cases h; exact ⟨fun h => absurd h (by decide), fun h => absurd h (by decide)⟩
  · rw [if_neg h3] at h; cases h; exact ⟨fun h => absurd h (by decide), fun _ => .inl ⟨rfl, rfl⟩⟩

/-- the data step of a receive loop -/
def DataStep (L : List Ev → Frame → List Byte → C RecvOut) : Prop :=
  ∀ (bs : List Byte), Open bs → ∀ (f : Frame) (c : List Byte), c ≠ [] → ∀ es,
    ∃ f', mbusParse f (rbuf (bs ++ c.take (need bs))) (bs ++ c.take (need bs)).length = .ok (code (bs ++ c.take (need bs)), f') ∧
      L (.data c :: es) f bs =
        if 0 < code (bs ++ c.take (need bs)) then L (cut (need bs) c es) f' (bs ++ c.take (need bs))
        else .ok ⟨if code (bs ++ c.take (need bs)) < 0 then RECV_INVALID else RECV_OK, f', cut (need bs) c es, some (bs ++ c.take (need bs))⟩

theorem loop_bad (L : List Ev → Frame → List Byte → C RecvOut) (hL : DataStep L) (target : List Byte) (hb : Bad target) (rest : List Byte) (n : Nat) :
    ∀ (cs : List (List Byte)) (bs q : List Byte) (f : Frame), q.length ≤ n → Chunks cs → target = bs ++ q → q ≠ [] → cs.flatten = q ++ rest →
    ∃ f0 f' cs', L (evs cs) f bs = .ok ⟨RECV_INVALID, f', evs cs', some target⟩ ∧ Chunks cs' ∧ cs'.flatten = rest ∧
      mbusParse f0 (rbuf target) target.length = .ok (code target, f') ∧ f0.type = f.type ∧ f0.control = f.control := by
  induction n with
  | zero =>
    intro cs bs q f hn _ _ hq _
    exact absurd (List.length_eq_zero_iff.mp (by omega)) hq
  | succ n ih =>
    intro cs bs q f hn hc ht hq hfl
    obtain ⟨ho, hneed⟩ := hb.pre bs q ht hq
    cases cs with
    | nil =>
      simp only [List.flatten_nil] at hfl
      exact absurd (List.append_eq_nil_iff.mp hfl.symm).1 hq
    | cons c cs =>
      have hcne := hc c (by simp)
      obtain ⟨f', hp, he⟩ := hL bs ho f c hcne (evs cs)
      obtain ⟨cs', hcut, hcs', hfl'⟩ := cut_evs (need bs) c cs hc
      have hx := take_need_ne ho hcne
      have hxl : (c.take (need bs)).length ≤ need bs := by simp only [List.length_take]; omega
      generalize c.take (need bs) = x at *
      -- x is a prefix of q
      have hsplit : x ++ cs'.flatten = q ++ rest := by rw [hfl', ← hfl]; simp
      obtain ⟨q', hq', hr'⟩ : ∃ q', q = x ++ q' ∧ cs'.flatten = q' ++ rest := by
        refine ⟨q.drop x.length, ?_, ?_⟩
        · have h1 : (q ++ rest).take x.length = x := by rw [← hsplit]; simp
          rw [List.take_append_of_le_length (by omega)] at h1
          have h2 := List.take_append_drop x.length q
          rw [h1] at h2
          exact h2.symm
        · have h1 : (q ++ rest).drop x.length = cs'.flatten := by rw [← hsplit]; simp
          rw [List.drop_append_of_le_length (by omega)] at h1
          exact h1.symm
      show ∃ f0 f' cs', L (.data c :: evs cs) f bs = _ ∧ _
      rw [he, hcut]
      have ht' : target = (bs ++ x) ++ q' := by rw [ht, hq']; simp
      by_cases hq0 : q' = []
      · subst hq0
        rw [List.append_nil] at ht'
        rw [← ht'] at hp ⊢
        have := hb.neg
        rw [if_neg (by omega), if_pos this]
        exact ⟨f, f', cs', rfl, hcs', by simpa using hr', hp, rfl, rfl⟩
      · have ho' := (hb.pre (bs ++ x) q' ht' hq0).1
        have hpos : 0 < code (bs ++ x) := by
          rcases ho' with h | h
          · exact absurd (List.append_eq_nil_iff.mp h).2 hx
          · exact h
        rw [if_pos hpos]
        obtain ⟨f0, f2, cs2, a, b, c, d, e, g⟩ := ih cs' (bs ++ x) q' f' (by
          have := List.length_pos_iff.mpr hx
          rw [hq', List.length_append] at hn
          omega) hcs' ht' hq0 hr'
        have := (parse_partial _ _ _ _ _ hp).1 hpos
        exact ⟨f0, f2, cs2, a, b, c, d, e.trans this.1, g.trans this.2⟩

theorem kind_bad (k : Kind) (tty : Bool) (ho : k = .tcp ∨ tty = true) (target : List Byte) (hb : Bad target) (hne : target ≠ []) (rest : List Byte)
    (cs : List (List Byte)) (hc : Chunks cs) (hfl : cs.flatten = target ++ rest) (f : Frame) :
    ∃ f0 f' cs' ev, kindRecv k tty (evs cs) f = .ok ⟨RECV_INVALID, f', evs cs', ev⟩ ∧ Chunks cs' ∧ cs'.flatten = rest ∧
      mbusParse f0 (rbuf target) target.length = .ok (code target, f') ∧ f0.type = f.type ∧ f0.control = f.control := by
  cases k with
  | tcp =>
    obtain ⟨f0, f', cs', h1, h2⟩ := loop_bad (fun es f bs => tcpLoop es f (rbuf bs) bs.length (need bs - 1)) (by
      intro bs ho f c hc es
      obtain ⟨f', a, _, b⟩ := tcp_data ho f c hc es
      exact ⟨f', a, b⟩) target hb rest _ cs [] target f (Nat.le_refl _) hc rfl hne hfl
    exact ⟨f0, f', cs', _, h1, h2⟩
  | serial =>
    rcases ho with h | rfl
    · cases h
    obtain ⟨f0, f', cs', h1, h2⟩ := loop_bad (fun es f bs => serialLoop es f (rbuf bs) bs.length (need bs - 1) 0) (by
      intro bs ho f c hc es
      obtain ⟨f', a, _, b⟩ := serial_data ho f 0 c hc es
      exact ⟨f', a, b⟩) target hb rest _ cs [] target f (Nat.le_refl _) hc rfl hne hfl
    exact ⟨f0, f', cs', _, h1, h2⟩

/-! garbled answers -/

theorem bad_start (b : Byte) (h : NoStart b) : Bad [b] := by
  obtain ⟨h1, h2, h3⟩ := h
  refine ⟨by simp [code, h1, h2, h3], fun p q he hq => ?_⟩
  have hp : p = [] := by
    cases p with
    | nil => rfl
    | cons x p =>
      simp only [List.cons_append, List.cons.injEq] at he
      exact absurd (List.append_eq_nil_iff.mp he.2.symm).2 hq
  subst hp
  have := List.length_pos_iff.mpr hq
  exact ⟨.inl rfl, by simp [need]; omega⟩

theorem bad_lengths (l1 l2 : Byte) (h : l1.toNat < 3 ∨ l1 ≠ l2) : Bad [0x68, l1, l2] := by
  refine ⟨by simp [code, h], fun p q he hq => ?_⟩
  have hlen := congrArg List.length he
  have hqp := List.length_pos_iff.mpr hq
  match p, he, hlen with
  | [], _, _ => exact ⟨.inl rfl, by simp [need]; omega⟩
  | [a], he, hlen =>
    simp only [List.cons_append, List.nil_append, List.cons.injEq] at he
    obtain ⟨rfl, rfl⟩ := he
    exact ⟨.inr (by simp [code]), by simp [need, code]⟩
  | [a, b], he, hlen =>
    simp only [List.cons_append, List.nil_append, List.cons.injEq] at he
    obtain ⟨rfl, rfl, rfl⟩ := he
    exact ⟨.inr (by simp [code]), by simp [need, code]⟩
  | a :: b :: c :: p, he, hlen => simp only [List.length_cons, List.length_append, List.length_nil] at hlen; omega

theorem bad_content (l s c : Byte) (body : List Byte) (h3 : 3 ≤ l.toNat) (hlen : body.length = l.toNat + 1)
    (hno : ∀ t : Telegram, t.Legal → t.wire ≠ 0x68 :: l :: l :: s :: c :: body) : Bad (0x68 :: l :: l :: s :: c :: body) := by
  refine ⟨?_, fun p q he hq => ?_⟩
  · have hz : code (0x68 :: l :: l :: s :: c :: body) ≠ 0 := by
      intro h
      rcases code_zero_wire _ h with h | ⟨t, _, hl, ht⟩
      · simp at h
      · exact hno t hl ht.symm
    have hp : ¬ 0 < code (0x68 :: l :: l :: s :: c :: body) := by
      intro h
      rcases code_pos_cases _ h with ⟨h, _⟩ | ⟨_, h, _⟩ | ⟨l', q', h, _, h', _⟩
      · simp at h
      · simp at h; omega
      · simp only [List.cons.injEq] at h
        obtain ⟨_, rfl, _⟩ := h
        simp at h'; omega
    omega
  · have hl := congrArg List.length he
    have hqp := List.length_pos_iff.mpr hq
    match p, he, hl with
    | [], _, _ => exact ⟨.inl rfl, by simp [need]; omega⟩
    | [a], he, hl =>
      simp only [List.cons_append, List.nil_append, List.cons.injEq] at he
      obtain ⟨rfl, rfl⟩ := he
      exact ⟨.inr (by simp [code]), by simp [need, code]⟩
    | [a, b], he, hl =>
      simp only [List.cons_append, List.nil_append, List.cons.injEq] at he
      obtain ⟨rfl, rfl, rfl⟩ := he
      exact ⟨.inr (by simp [code]), by simp [need, code]⟩
    | a :: b :: d :: p, he, hl =>
      simp only [List.cons_append, List.cons.injEq] at he
      obtain ⟨rfl, rfl, rfl, he⟩ := he
      simp only [List.length_cons, List.length_append, hlen] at hl
      have hc : code (0x68 :: l :: l :: p) = ((3 + l.toNat - p.length : Nat) : Int) := by
        simp only [code]
        rw [if_neg (by decide), if_neg (by decide), if_pos trivial, if_neg (by simp; omega), if_pos (by omega)]
      have hpos : 0 < code (0x68 :: l :: l :: p) := by rw [hc]; omega
      refine ⟨.inr hpos, ?_⟩
      rw [Open.need_code hpos, hc]
      omega

/-- receiving a garbled answer into a fresh frame object -/
theorem recv_garbled (k : Kind) (env : Env) (ho : IsOpen k env) (purge : Int) (hp : purge ≠ PURGE_S2M) (sent : List (List Byte))
    (cs : List (List Byte)) (hc : Chunks cs) (hg : Garbled cs.flatten) :
    ∃ f' cs', recvFrame (busLink k env) purge ⟨evs cs, sent⟩ Frame.zero = .ok (RECV_INVALID, f', ⟨evs cs', sent⟩) ∧ Chunks cs' := by
  have key : ∃ target rest, cs.flatten = target ++ rest ∧ target ≠ [] ∧ Bad target ∧ rd (rbuf target) 0 ≠ .ok 0x10 ∧
      ∀ c, rd (rbuf target) 4 = .ok c → c &&& 0x40 = 0 := by
    have z : (0 : Byte) &&& 0x40 = 0 := by decide
    have hrd : ∀ (t : List Byte) (i : Nat), i < 2048 → t.length ≤ 2048 → rd (rbuf t) i = .ok ((t[i]?).getD 0) := by
      intro t i hi ht
      rw [rd_ok (by simp [rbuf]; omega)]
      congr 1
      unfold rbuf
      by_cases h : i < t.length
      · rw [List.getElem_append_left h]; simp [h]
      · rw [List.getElem_append_right (by omega)]; simp [List.getElem?_eq_none (show t.length ≤ i by omega)]
    generalize hF : cs.flatten = F at hg
    cases hg with
    | start b rest h =>
      refine ⟨[b], rest, rfl, by simp, bad_start b h, ?_, ?_⟩
      · rw [hrd _ _ (by omega) (by simp)]
        simp
        exact h.2.1
      · intro c hc
        rw [hrd _ _ (by omega) (by simp)] at hc
        simp at hc
        subst hc; exact z
    | lengths l1 l2 rest h =>
      refine ⟨[0x68, l1, l2], rest, rfl, by simp, bad_lengths l1 l2 h, ?_, ?_⟩
      · rw [hrd _ _ (by omega) (by simp)]
        simp
      · intro c hc
        rw [hrd _ _ (by omega) (by simp)] at hc
        simp at hc
        subst hc; exact z
    | content l s c body rest h1 h2 h3 h4 =>
      have hl := l.toNat_lt
      refine ⟨0x68 :: l :: l :: s :: c :: body, rest, rfl, by simp, bad_content l s c body h1 h2 h4, ?_, ?_⟩
      · rw [hrd _ _ (by omega) (by simp; omega)]
        simp
      · intro c' hc
        rw [hrd _ _ (by omega) (by simp; omega)] at hc
        simp at hc
        subst hc; exact h3
  obtain ⟨target, rest, hfl, hne, hbad, h10, h4⟩ := key
  obtain ⟨f0, f', cs', ev, h1, h2, _, h3, e1, e2⟩ := kind_bad k env.tty ho target hbad hne rest cs hc hfl Frame.zero
  refine ⟨f', cs', ?_, h2⟩
  have h1' : (busLink k env).recv ⟨evs cs, sent⟩ Frame.zero = .ok (RECV_INVALID, f', ⟨evs cs', sent⟩) := by
    show (kindRecv k env.tty (evs cs) Frame.zero >>= _) = _
    rw [h1]; rfl
  have hz : ∀ c : Byte, c &&& 0x40 = 0 → c &&& MASK_DIR = MASK_DIR_S2M := by apply forall_byte; decide +kernel
  have hdir : frameDirection f' = MASK_DIR_S2M := by
    unfold frameDirection
    split
    · rfl
    · rcases (parse_partial _ _ _ _ _ h3).2 hbad.neg with ⟨_, b⟩ | h | ⟨_, h⟩
      · rw [b, e2]; decide
      · exact absurd h h10
      · exact hz _ (h4 _ h)
  unfold recvFrame
  rw [h1', ok_bind]
  simp only
  rw [hdir, if_neg (by decide), if_pos rfl, if_neg hp]

theorem purge_garbled (k : Kind) (env : Env) (ho : IsOpen k env) (purge : Int) (hp : purge ≠ PURGE_S2M) (sent : List (List Byte))
    (cs : List (List Byte)) (hc : Chunks cs) (hg : Garbled cs.flatten) :
    purgeFrames (busLink k env) purge ⟨evs cs, sent⟩ = .ok (1, ⟨[], sent⟩) := by
  obtain ⟨f', cs', h1, h2⟩ := recv_garbled k env ho purge hp sent cs hc hg
  unfold purgeFrames
  rw [purgeLoop]
  split
  · next h => rw [h1] at h; cases h
  · next h =>
    rw [h1] at h
    simp only [Except.ok.injEq, Prod.mk.injEq] at h
    obtain ⟨rfl, rfl, rfl⟩ := h
    rw [dif_neg (by decide)]
    obtain ⟨r', e1, e2⟩ := purge_chunks k env ho purge sent _ cs' f' 1 (Nat.le_refl _) h2
    rw [e1, e2 rfl]

end Mbus
