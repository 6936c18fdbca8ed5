import Verif.Lemmas.Exchange
/- receiving from a line that delivers bytes in chunks of any size -/
namespace Mbus
open Spec

theorem feeds_all (skip : Ev) : ∀ (cs : List (List Byte)), Chunks cs → Feeds skip 0 (evs cs) cs.flatten [] := by
  intro cs
  induction cs with
  | nil => intro _; exact .done _
  | cons c cs ih =>
    intro h
    exact .whole c (h c (by simp)) (ih fun d hd => h d (by simp [hd]))

/-- what a script of chunks feeds, and what it leaves -/
theorem feeds_chunks {skip : Ev} (hskip : skip = .eintr ∨ skip = .data []) {k : Nat} {es es1 : List Ev} {bs : List Byte}
    (h : Feeds skip k es bs es1) : ∀ cs, Chunks cs → es = evs cs →
    k = 0 ∧ ∃ cs', Chunks cs' ∧ es1 = evs cs' ∧ cs.flatten = bs ++ cs'.flatten := by
  induction h with
  | done es => intro cs hc he; exact ⟨rfl, cs, hc, he, by simp⟩
  | skip h1 h2 ih =>
    intro cs hc he
    cases cs with
    | nil => simp [evs] at he
    | cons c cs =>
      simp only [evs, List.map_cons, List.cons.injEq] at he
      rcases hskip with rfl | rfl
      · cases he.1
      · exact absurd (Ev.data.inj he.1).symm (hc c (by simp))
  | whole c h1 h2 ih =>
    intro cs hc he
    cases cs with
    | nil => simp [evs] at he
    | cons d cs =>
      simp only [evs, List.map_cons, List.cons.injEq] at he
      obtain ⟨rfl⟩ := Ev.data.inj he.1
      obtain ⟨hk, cs', a, b, e⟩ := ih cs (fun x hx => hc x (by simp [hx])) he.2
      exact ⟨hk, cs', a, b, by rw [List.flatten_cons, e, List.append_assoc]⟩
  | part c d es h1 h2 =>
    intro cs hc he
    cases cs with
    | nil => simp [evs] at he
    | cons x cs =>
      simp only [evs, List.map_cons, List.cons.injEq] at he
      have hx := Ev.data.inj he.1
      refine ⟨rfl, d :: cs, ?_, by rw [he.2]; rfl, by rw [List.flatten_cons, ← hx, List.flatten_cons, List.append_assoc]⟩
      intro y hy
      rcases List.mem_cons.mp hy with rfl | hy
      · exact h2
      · exact hc y (by simp [hy])

theorem evs_ne {cs : List (List Byte)} {j : Nat} {skip e : Ev} {r : List Ev} (hc : Chunks cs)
    (he : ∀ c : List Byte, c ≠ [] → e ≠ .data c) (hs : skip = .eintr ∨ skip = .data []) : evs cs ≠ List.replicate j skip ++ e :: r := by
  intro h
  have hne : ∀ x : Ev, (∀ c : List Byte, c ≠ [] → x ≠ .data c) → ∀ rest, evs cs ≠ x :: rest := by
    intro x hx rest h
    cases cs with
    | nil => simp [evs] at h
    | cons c cs =>
      simp only [evs, List.map_cons, List.cons.injEq] at h
      exact hx c (hc c (by simp)) h.1.symm
  cases j with
  | zero => exact hne e he _ h
  | succ j =>
    rw [List.replicate_succ, List.cons_append] at h
    refine hne skip ?_ _ h
    rintro c hc'
    rcases hs with rfl | rfl
    · simp
    · intro he; exact hc' (Ev.data.inj he).symm

theorem evs_replicate {cs : List (List Byte)} {j : Nat} {skip : Ev} (hc : Chunks cs) (hs : skip = .eintr ∨ skip = .data [])
    (h : evs cs = List.replicate j skip) : cs = [] := by
  cases j with
  | zero => cases cs with
    | nil => rfl
    | cons => simp [evs] at h
  | succ j =>
    exact absurd (by rw [h, List.replicate_succ]; rfl : evs cs = List.replicate 0 skip ++ skip :: List.replicate j skip)
      (evs_ne hc (by
        intro c hc'
        rcases hs with rfl | rfl
        · simp
        · intro he; exact hc' (Ev.data.inj he).symm) hs)

/-- one receive from a line of chunks: it takes a front part; if it took neither a telegram nor garbage there is nothing left -/
theorem kind_recv_chunks (k : Kind) (tty : Bool) (ho : k = .tcp ∨ tty = true) (cs : List (List Byte)) (hc : Chunks cs) (f : Frame) :
    ∃ code f' cs' ev, kindRecv k tty (evs cs) f = .ok ⟨code, f', evs cs', ev⟩ ∧ Chunks cs' ∧
      (code = RECV_OK ∨ code = RECV_INVALID ∨ (code = RECV_TIMEOUT ∧ cs' = [])) := by
  have nil : Chunks [] := by intro c hc; cases hc
  cases k with
  | tcp =>
    obtain ⟨out, bs, k, es1, h1, h2, h3⟩ := C40_tcp_recv_outcome (evs cs) f
    obtain ⟨_, cs', a, b, _⟩ := feeds_chunks (.inl rfl) h2 cs hc rfl
    obtain ⟨code, f', rest, ev⟩ := out
    rcases h3 with ⟨c, r, _⟩ | ⟨c, r, _⟩ | ⟨_, _, j, ⟨c, e, r⟩ | ⟨c, e⟩ | ⟨c, e⟩ | ⟨c, e⟩⟩
    · simp only at c r; subst c r; rw [b] at h1; exact ⟨_, _, cs', _, h1, a, .inl rfl⟩
    · simp only at c r; subst c r; rw [b] at h1; exact ⟨_, _, cs', _, h1, a, .inr (.inl rfl)⟩
    · simp only at c r; subst c r; exact ⟨_, _, [], _, h1, nil, .inr (.inr ⟨rfl, rfl⟩)⟩
    · rw [b] at e; exact absurd e (evs_ne a (by simp) (.inl rfl))
    · rw [b] at e; exact absurd e (evs_ne a (by simp) (.inl rfl))
    · rw [b] at e; exact absurd e (evs_ne a (by intro c hc h; exact hc (Ev.data.inj h).symm) (.inl rfl))
  | serial =>
    rcases ho with h | h
    · cases h
    subst h
    obtain ⟨out, bs, k, es1, h1, h2, h3⟩ := C41_serial_recv_outcome (evs cs) f
    obtain ⟨hk, cs', a, b, _⟩ := feeds_chunks (.inr rfl) h2 cs hc rfl
    obtain ⟨code, f', rest, ev⟩ := out
    rcases h3 with ⟨c, _, r, _⟩ | ⟨c, _, r, _⟩ | ⟨c, _, _, _, j, ⟨hj, e⟩ | ⟨_, e, r⟩⟩ | ⟨c, _, _, e | ⟨e, r⟩⟩ | ⟨c, _, _, j, e, _, he, h⟩
    · simp only at c r; subst c r; rw [b] at h1; exact ⟨_, _, cs', _, h1, a, .inl rfl⟩
    · simp only at c r; subst c r; rw [b] at h1; exact ⟨_, _, cs', _, h1, a, .inr (.inl rfl)⟩
    · have : ∃ j', j = j' + 1 := ⟨2, by omega⟩
      obtain ⟨j', rfl⟩ := this
      rw [b, List.replicate_succ'] at e
      rw [List.append_assoc] at e
      exact absurd e (evs_ne a (by intro c hc h; exact hc (Ev.data.inj h).symm) (.inr rfl))
    · simp only at c r; subst c r; exact ⟨_, _, [], _, h1, nil, .inr (.inl rfl)⟩
    · rw [b] at e
      exact absurd (by rw [e]; rfl : evs cs' = List.replicate 0 (.data []) ++ _ :: rest) (evs_ne (e := .data []) a (by intro c hc h; exact hc (Ev.data.inj h).symm) (.inr rfl))
    · simp only at c r; subst c r; exact ⟨_, _, [], _, h1, nil, .inr (.inr ⟨rfl, rfl⟩)⟩
    · rw [b] at h
      refine absurd h (evs_ne a ?_ (.inr rfl))
      intro c _
      rcases he with rfl | rfl | rfl <;> simp

theorem bus_recv_chunks (k : Kind) (env : Env) (ho : IsOpen k env) (sent : List (List Byte)) (cs : List (List Byte)) (hc : Chunks cs) (f : Frame) :
    ∃ code f' cs', (busLink k env).recv ⟨evs cs, sent⟩ f = .ok (code, f', ⟨evs cs', sent⟩) ∧ Chunks cs' ∧
      (code = RECV_OK ∨ code = RECV_INVALID ∨ (code = RECV_TIMEOUT ∧ cs' = [])) := by
  obtain ⟨code, f', cs', ev, h1, h2, h3⟩ := kind_recv_chunks k env.tty ho cs hc f
  refine ⟨code, f', cs', ?_, h2, h3⟩
  show (kindRecv k env.tty (evs cs) f >>= _) = _
  rw [h1]; rfl

theorem recv_chunks (k : Kind) (env : Env) (ho : IsOpen k env) (purge : Int) (sent : List (List Byte)) (cs : List (List Byte)) (hc : Chunks cs) (f : Frame) :
    ∃ code f' cs', recvFrame (busLink k env) purge ⟨evs cs, sent⟩ f = .ok (code, f', ⟨evs cs', sent⟩) ∧ Chunks cs' ∧
      (code = RECV_OK ∨ code = RECV_INVALID ∨ (code = RECV_TIMEOUT ∧ cs' = [])) := by
  obtain ⟨code, f', cs', h1, h2, h3⟩ := bus_recv_chunks k env ho sent cs hc f
  obtain ⟨code2, f2, cs2, g1, g2, g3⟩ := bus_recv_chunks k env ho sent cs' h2 f'
  unfold recvFrame
  rw [h1]
  simp only [ok_bind, g1]
  repeat' split
  all_goals first
    | exact ⟨_, _, _, rfl, g2, g3⟩
    | exact ⟨_, _, _, rfl, h2, h3⟩

/-- purging empties the line -/
theorem purge_chunks (k : Kind) (env : Env) (ho : IsOpen k env) (purge : Int) (sent : List (List Byte)) (n : Nat) :
    ∀ (cs : List (List Byte)) (f : Frame) (r : Int), evWeight (evs cs) ≤ n → Chunks cs →
    ∃ r', purgeLoop (busLink k env) purge ⟨evs cs, sent⟩ f r = .ok (r', ⟨[], sent⟩) ∧ (r = 1 → r' = 1) := by
  induction n with
  | zero =>
    intro cs f r hw hc
    have hcs : cs = [] := by
      cases cs with
      | nil => rfl
      | cons c cs => simp only [evs, List.map_cons, evWeight] at hw; omega
    subst hcs
    rw [purgeLoop]
    split
    · next h => rw [show evs [] = [] from rfl, recv_silent k env ho] at h; cases h
    · next h =>
      rw [show evs [] = [] from rfl, recv_silent k env ho] at h
      cases h
      rw [dif_pos (by decide)]
      exact ⟨r, rfl, id⟩
  | succ n ih =>
    intro cs f r hw hc
    obtain ⟨code, f', cs', h1, h2, h3⟩ := recv_chunks k env ho purge sent cs hc f
    rw [purgeLoop]
    split
    · next h => rw [h1] at h; cases h
    · next h =>
      rw [h1] at h
      simp only [Except.ok.injEq, Prod.mk.injEq] at h
      obtain ⟨rfl, rfl, rfl⟩ := h
      by_cases hx : code ≠ RECV_OK ∧ code ≠ RECV_INVALID
      · rw [dif_pos hx]
        rcases h3 with h | h | ⟨_, rfl⟩
        · exact absurd h hx.1
        · exact absurd h hx.2
        · exact ⟨r, rfl, id⟩
      · rw [dif_neg hx]
        have hlt := recvFrame_lt _ _ _ _ _ _ _ h1 (by
          by_cases h0 : code = RECV_OK
          · exact .inl h0
          · exact .inr (Decidable.byContradiction fun h1 => hx ⟨h0, h1⟩))
        simp only [busLink] at hlt
        obtain ⟨r', e1, e2⟩ := ih cs' f' 1 (by omega) h2
        exact ⟨r', e1, fun _ => e2 rfl⟩

theorem purge_drains (k : Kind) (env : Env) (ho : IsOpen k env) (purge : Int) (sent : List (List Byte)) (cs : List (List Byte)) (hc : Chunks cs) :
    ∃ r, purgeFrames (busLink k env) purge ⟨evs cs, sent⟩ = .ok (r, ⟨[], sent⟩) := by
  obtain ⟨r', h, _⟩ := purge_chunks k env ho purge sent _ cs Frame.zero 0 (Nat.le_refl _) hc
  exact ⟨r', h⟩

/-! a telegram in chunks -/

theorem kind_recv_telegram (k : Kind) (tty : Bool) (ho : k = .tcp ∨ tty = true) (cs : List (List Byte)) (hc : Chunks cs) (t : Telegram) (hl : t.Legal)
    (hw : cs.flatten = t.wire) (f : Frame) :
    ∃ f' ev, kindRecv k tty (evs cs) f = .ok ⟨RECV_OK, f', [], ev⟩ ∧ Carries f' t := by
  have hne : t.wire ≠ [] := by cases t <;> simp [Telegram.wire]
  cases k with
  | tcp =>
    have hf := feeds_all .eintr cs hc
    rw [hw] at hf
    obtain ⟨f', h1, h2⟩ := C40_tcp_recv_delivers _ _ _ t f hl hf
    exact ⟨f', _, h1, h2⟩
  | serial =>
    rcases ho with h | h
    · cases h
    subst h
    have hf := feeds_all (.data []) cs hc
    rw [hw] at hf
    obtain ⟨f', h1, h2⟩ := C41_serial_recv_delivers _ _ _ t f hl hf (by omega) (by
      cases cs with
      | nil => simp [evs]
      | cons c cs =>
        have := hc c (by simp)
        simp [evs, this])
    exact ⟨f', _, h1, h2⟩

theorem recv_telegram (k : Kind) (env : Env) (ho : IsOpen k env) (purge : Int) (hp : purge ≠ PURGE_S2M) (sent : List (List Byte))
    (cs : List (List Byte)) (hc : Chunks cs) (t : Telegram) (hl : t.Legal) (hs : FromSlave t) (hw : cs.flatten = t.wire) (f : Frame) :
    ∃ f', recvFrame (busLink k env) purge ⟨evs cs, sent⟩ f = .ok (RECV_OK, f', ⟨[], sent⟩) ∧ Carries f' t := by
  obtain ⟨f', ev, h1, h2⟩ := kind_recv_telegram k env.tty ho cs hc t hl hw f
  refine ⟨f', ?_, h2⟩
  have h1' : (busLink k env).recv ⟨evs cs, sent⟩ f = .ok (RECV_OK, f', ⟨[], sent⟩) := by
    show (kindRecv k env.tty (evs cs) f >>= _) = _
    rw [h1]; rfl
  unfold recvFrame
  simp only [h1', ok_bind]
  rw [direction_slave f' t h2 hs, if_neg (by decide), if_pos rfl, if_neg hp]

/-- an acknowledge at the front of the line -/
theorem bus_recv_ack1 (k : Kind) (env : Env) (ho : IsOpen k env) (sent : List (List Byte)) (cs : List (List Byte)) (hc : Chunks cs)
    (rest : List Byte) (hh : cs.flatten = 0xE5 :: rest) (f : Frame) :
    ∃ f' cs', (busLink k env).recv ⟨evs cs, sent⟩ f = .ok (RECV_OK, f', ⟨evs cs', sent⟩) ∧ Carries f' .ack ∧ Chunks cs' ∧ cs'.flatten = rest := by
  cases cs with
  | nil => simp at hh
  | cons c cs =>
    have hcne := hc c (by simp)
    cases c with
    | nil => exact absurd rfl hcne
    | cons m t =>
      simp only [List.flatten_cons, List.cons_append, List.cons.injEq] at hh
      obtain ⟨rfl, hrest⟩ := hh
      have hcs : Chunks cs := fun x hx => hc x (by simp [hx])
      have hlegal : Telegram.ack.Legal := trivial
      have hfeed : ∀ skip, Feeds skip 0 (evs ((0xE5 :: t) :: cs)) Telegram.ack.wire (evs (if t = [] then cs else t :: cs)) := by
        intro skip
        by_cases ht : t = []
        · subst ht
          rw [if_pos rfl]
          exact .whole [0xE5] (by simp) (.done _)
        · rw [if_neg ht]
          exact .part [0xE5] t (evs cs) (by simp) ht
      have hck : Chunks (if t = [] then cs else t :: cs) := by
        split
        · exact hcs
        · next h =>
          intro x hx
          rcases List.mem_cons.mp hx with rfl | hx
          · exact h
          · exact hcs x hx
      have hfl : (if t = [] then cs else t :: cs).flatten = rest := by
        split
        · next h => rw [← hrest, h]; rfl
        · rw [← hrest]; rfl
      have key : ∃ f' ev, kindRecv k env.tty (evs ((0xE5 :: t) :: cs)) f = .ok ⟨RECV_OK, f', evs (if t = [] then cs else t :: cs), ev⟩ ∧ Carries f' .ack := by
        cases k with
        | tcp =>
          obtain ⟨f', h1, h2⟩ := C40_tcp_recv_delivers _ _ _ .ack f hlegal (hfeed .eintr)
          exact ⟨f', _, h1, h2⟩
        | serial =>
          rcases ho with h | h
          · cases h
          rw [h]
          obtain ⟨f', h1, h2⟩ := C41_serial_recv_delivers _ _ _ .ack f hlegal (hfeed _) (by omega) (by simp [evs])
          exact ⟨f', _, h1, h2⟩
      obtain ⟨f', ev, h1, h2⟩ := key
      refine ⟨f', _, ?_, h2, hck, hfl⟩
      show (kindRecv k env.tty _ f >>= _) = _
      rw [h1]; rfl

theorem recv_ack1 (k : Kind) (env : Env) (ho : IsOpen k env) (purge : Int) (hp : purge ≠ PURGE_S2M) (sent : List (List Byte))
    (cs : List (List Byte)) (hc : Chunks cs) (rest : List Byte) (hh : cs.flatten = 0xE5 :: rest) (f : Frame) :
    ∃ f' cs', recvFrame (busLink k env) purge ⟨evs cs, sent⟩ f = .ok (RECV_OK, f', ⟨evs cs', sent⟩) ∧ Carries f' .ack ∧ Chunks cs' ∧ cs'.flatten = rest := by
  obtain ⟨f', cs', h1, h2, h3, h4⟩ := bus_recv_ack1 k env ho sent cs hc rest hh f
  refine ⟨f', cs', ?_, h2, h3, h4⟩
  unfold recvFrame
  simp only [h1, ok_bind]
  rw [direction_slave f' .ack h2 trivial, if_neg (by decide), if_pos rfl, if_neg hp]

end Mbus
