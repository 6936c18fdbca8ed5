import Verif.Lemmas.MessagesRec
import Verif.Lemmas.Transport
/- Lemmas for Props/Messages.lean: messages of the transports. -/
namespace Mbus
open Spec

/-- The parser looks only at the first `size` bytes. -/
theorem parseE_take (f : Frame) (data : List Byte) (size : Nat) (h : size ≤ data.length) :
    mbusParseE f data size = mbusParseE f (data.take size) size := by
  have hr : ∀ i, i < size → rd data i = rd (data.take size) i := by
    intro i hi
    rw [rd_ok (by omega), rd_ok (by simp; omega)]
    simp
  have hl : ∀ n i (b : Buf 252), 7 + i + n ≤ size →
      forN n i b (fun i b => do let x ← rd data (7 + i); b.wr i x) =
      forN n i b (fun i b => do let x ← rd (data.take size) (7 + i); b.wr i x) := by
    intro n
    induction n with
    | zero => intros; rfl
    | succ n ih =>
      intro i b hs
      rw [forN, forN, hr (7 + i) (by omega)]
      congr 1
      funext s'
      exact ih (i + 1) s' (by omega)
  unfold mbusParseE
  by_cases h0 : size = 0
  · rw [if_pos h0, if_pos h0]
  rw [if_neg h0, if_neg h0]
  rw [hr 0 (by omega)]
  congr 1; funext d0
  by_cases k0 : d0 = ACK_START
  · rw [if_pos k0, if_pos k0]
  rw [if_neg k0, if_neg k0]
  by_cases k1 : d0 = SHORT_START
  · rw [if_pos k1, if_pos k1]
    by_cases k2 : size < 5
    · rw [if_pos k2, if_pos k2]
    rw [if_neg k2, if_neg k2]
    by_cases k3 : size ≠ 5
    · rw [if_pos k3, if_pos k3]
    rw [if_neg k3, if_neg k3]
    rw [hr 1 (by omega), hr 2 (by omega), hr 3 (by omega), hr 4 (by omega)]
  rw [if_neg k1, if_neg k1]
  by_cases k2 : d0 = LONG_START
  · rw [if_pos k2, if_pos k2]
    by_cases k3 : size < 3
    · rw [if_pos k3, if_pos k3]
    rw [if_neg k3, if_neg k3]
    rw [hr 1 (by omega), hr 2 (by omega)]
    congr 1; funext l1; congr 1; funext l2
    dsimp only
    by_cases g1 : l1 < 3
    · rw [if_pos g1, if_pos g1]
    rw [if_neg g1, if_neg g1]
    by_cases g2 : l1 ≠ l2
    · rw [if_pos g2, if_pos g2]
    rw [if_neg g2, if_neg g2]
    by_cases g3 : size < 6 + l1.toNat
    · rw [if_pos g3, if_pos g3]
    rw [if_neg g3, if_neg g3]
    by_cases g4 : size > 6 + l1.toNat
    · rw [if_pos g4, if_pos g4]
    rw [if_neg g4, if_neg g4]
    have g5 : 3 ≤ l1.toNat := by
      by_cases hh : l1.toNat < 3
      · exact absurd (UInt8.lt_iff_toNat_lt.mpr (by simpa using hh)) g1
      · omega
    rw [hr 3 (by omega), hr 4 (by omega), hr 5 (by omega), hr 6 (by omega), hl _ _ _ (by omega),
      hr (size - 2) (by omega), hr (size - 1) (by omega)]
  · rw [if_neg k2, if_neg k2]


theorem parseE_rbuf (f : Frame) (bs : List Byte) :
    ∃ f', mbusParseE f (rbuf bs) bs.length = .ok (code bs, f', says bs) ∧ (code bs < 0 ↔ says bs ≠ none) := by
  obtain ⟨f', h1, _⟩ := parse_rbuf f bs
  obtain ⟨r, g, h2, h3⟩ := parseE_says f bs
  have h4 : mbusParseE f (rbuf bs) bs.length = .ok (r, g, says bs) := by
    rw [parseE_take f (rbuf bs) bs.length (by simp [rbuf]), rbuf_take, h2]
  have h5 := parseE_mute f (rbuf bs) bs.length
  rw [h4, h1, silent2_ok] at h5
  cases h5
  exact ⟨_, h4, h3⟩

theorem parseE_split {f : Frame} {data : List Byte} {size : Nat} {r : Int} {g : Frame} (h : mbusParse f data size = .ok (r, g)) :
    ∃ t, mbusParseE f data size = .ok (r, g, t) := by
  rw [← parseE_mute] at h
  cases h1 : mbusParseE f data size with
  | error e => rw [h1] at h; cases h
  | ok q => obtain ⟨a, b, c⟩ := q; rw [h1] at h; cases h; exact ⟨c, rfl⟩

theorem parseE_fault {f : Frame} {data : List Byte} {size : Nat} {e : Fault} (h : mbusParse f data size = .error e) :
    mbusParseE f data size = .error e := by
  rw [← parseE_mute] at h
  cases h1 : mbusParseE f data size with
  | error e => rw [h1] at h; cases h; rfl
  | ok q => rw [h1] at h; cases h

theorem tcpLoopE_mute (es : List Ev) (f : Frame) (buff : List Byte) (len m : Nat) (said : Said) :
    silent (tcpLoopE es f buff len m said) = tcpLoop es f buff len m := by
  fun_induction tcpLoop es f buff len m generalizing said with
  | case1 => rw [tcpLoopE]; simp [*]
  | case2 => rw [tcpLoopE, if_neg (by assumption)]; split <;> simp_all +zetaDelta
  | case3 => rw [tcpLoopE, if_neg (by assumption)]; split <;> simp_all +zetaDelta
  | case4 => rw [tcpLoopE, if_neg (by assumption)]; split <;> simp_all +zetaDelta
  | case5 => rw [tcpLoopE, if_neg (by assumption)]; split <;> simp_all +zetaDelta
  | case6 => rw [tcpLoopE, if_neg (by assumption)]; split <;> simp_all +zetaDelta
  | case7 => rw [tcpLoopE, if_neg (by assumption)]; split <;> simp_all +zetaDelta
  | case8 _ _ _ _ _ _ _ _ _ _ _ _ _ _ hp => have := parseE_fault hp; rw [tcpLoopE, if_neg (by assumption)]; split <;> simp_all +zetaDelta
  | case9 _ _ _ _ _ _ _ _ _ _ _ _ _ _ _ hp => obtain ⟨t, hp'⟩ := parseE_split hp; rw [tcpLoopE, if_neg (by assumption)]; split <;> simp_all +zetaDelta
  | case10 _ _ _ _ _ _ _ _ _ _ _ _ _ _ _ hp hn =>
    obtain ⟨t, hp'⟩ := parseE_split hp
    rw [tcpLoopE, if_neg (by assumption)]
    split <;> simp_all +zetaDelta
    rw [if_neg (by omega)]
    split <;> rfl

theorem serialLoopE_step (es : List Ev) (f : Frame) (buff : List Byte) (len m timeouts : Nat) (said : Said) :
    serialLoopE es f buff len m timeouts said =
      if len + (m + 1) > PACKET_BUFF_SIZE then .ok (⟨RECV_ERROR, f, es, none⟩, said)
      else match readEv (m + 1) es with
        | (none, es') =>
          if 3 ≤ timeouts + 1 then .ok (serialTail f es' buff len (m + 1), said)
          else match mbusParseE f buff len with
            | .error e => .error e
            | .ok (remaining, f, t) =>
              if remaining > 0 then serialLoopE es' f buff len (remaining.toNat - 1) (timeouts + 1) (t <|> said)
              else .ok (serialTail f es' buff len remaining, t <|> said)
        | (some (.data bs), es') =>
          if bs.length = 0 ∧ 3 ≤ (if bs.length = 0 then timeouts + 1 else timeouts) then .ok (serialTail f es' buff len (m + 1), said)
          else match store buff len bs with
            | .error e => .error e
            | .ok buff =>
              match mbusParseE f buff (len + bs.length) with
              | .error e => .error e
              | .ok (remaining, f, t) =>
                if remaining > 0 then
                  serialLoopE es' f buff (len + bs.length) (remaining.toNat - 1) (if bs.length = 0 then timeouts + 1 else timeouts) (t <|> said)
                else .ok (serialTail f es' buff (len + bs.length) remaining, t <|> said)
        | (some _, es') => .ok (⟨RECV_ERROR, f, es', none⟩, said) := by
  rw [serialLoopE]
  split
  · rfl
  · split
    · rename_i h; rw [h]
      rfl
    · rename_i h; rw [h]
      rfl
    · rename_i v _ hx h; rw [h]
      cases v with
      | data bs => exact (hx bs rfl).elim
      | _ => rfl

theorem serialLoop_step (es : List Ev) (f : Frame) (buff : List Byte) (len m timeouts : Nat) :
    serialLoop es f buff len m timeouts =
      if len + (m + 1) > PACKET_BUFF_SIZE then .ok ⟨RECV_ERROR, f, es, none⟩
      else match readEv (m + 1) es with
        | (none, es') =>
          if 3 ≤ timeouts + 1 then .ok (serialTail f es' buff len (m + 1))
          else match mbusParse f buff len with
            | .error e => .error e
            | .ok (remaining, f) =>
              if remaining > 0 then serialLoop es' f buff len (remaining.toNat - 1) (timeouts + 1)
              else .ok (serialTail f es' buff len remaining)
        | (some (.data bs), es') =>
          if bs.length = 0 ∧ 3 ≤ (if bs.length = 0 then timeouts + 1 else timeouts) then .ok (serialTail f es' buff len (m + 1))
          else match store buff len bs with
            | .error e => .error e
            | .ok buff =>
              match mbusParse f buff (len + bs.length) with
              | .error e => .error e
              | .ok (remaining, f) =>
                if remaining > 0 then
                  serialLoop es' f buff (len + bs.length) (remaining.toNat - 1) (if bs.length = 0 then timeouts + 1 else timeouts)
                else .ok (serialTail f es' buff (len + bs.length) remaining)
        | (some _, es') => .ok ⟨RECV_ERROR, f, es', none⟩ := by
  rw [serialLoop]
  split
  · rfl
  · split
    · rename_i h; rw [h]
      rfl
    · rename_i h; rw [h]
      rfl
    · rename_i v _ hx h; rw [h]
      cases v with
      | data bs => exact (hx bs rfl).elim
      | _ => rfl

theorem serialLoopE_mute (n : Nat) : ∀ (es : List Ev) (f : Frame) (buff : List Byte) (len m timeouts : Nat) (said : Said),
    evWeight es + (3 - timeouts) ≤ n →
    silent (serialLoopE es f buff len m timeouts said) = serialLoop es f buff len m timeouts := by
  induction n with
  | zero =>
    intro es f buff len m timeouts said hw
    rw [serialLoopE_step, serialLoop_step]
    cases es with
    | nil => simp only [readEv]; rw [if_pos (by omega : 3 ≤ timeouts + 1), if_pos (by omega : 3 ≤ timeouts + 1)]; split <;> rfl
    | cons a es => cases a <;> (simp only [evWeight] at hw; omega)
  | succ n ih =>
    intro es f buff len m timeouts said hw
    rw [serialLoopE_step, serialLoop_step]
    split
    · rfl
    split
    · rename_i es' hr
      have : es' = es := by
        cases es with
        | nil => simp [readEv] at hr; exact hr
        | cons a es => cases a <;> simp [readEv] at hr
      subst this
      split
      · rfl
      rw [← parseE_mute]
      cases mbusParseE f buff len with
      | error e => rfl
      | ok q =>
        obtain ⟨r, g, t⟩ := q
        simp only [silent2_ok]
        split
        · exact ih _ _ _ _ _ _ _ (by omega)
        · rfl
    · rename_i bs es' hr
      have hlt := readEv_weight _ _ _ _ hr
      have hto : 3 - (if bs.length = 0 then timeouts + 1 else timeouts) ≤ 3 - timeouts := by split <;> omega
      generalize (if bs.length = 0 then timeouts + 1 else timeouts) = to at *
      split
      · rfl
      cases store buff len bs with
      | error e => rfl
      | ok b =>
        simp only
        rw [← parseE_mute]
        cases mbusParseE f b (len + bs.length) with
        | error e => rfl
        | ok q =>
          obtain ⟨r, g, t⟩ := q
          simp only [silent2_ok]
          split
          · exact ih _ _ _ _ _ _ _ (by omega)
          · rfl
    · rfl

theorem readEv_lighter {n : Nat} (hn : 1 ≤ n) {es es' : List Ev} {e : Ev} (h : readEv n es = (some e, es')) : evWeight es' < evWeight es := by
  cases n with
  | zero => omega
  | succ n => exact readEv_weight _ _ _ _ h

/-- the message of each result code of the TCP transport -/
def TcpSays (out : RecvOut) (m : Said) : Prop :=
  (out.code = RECV_OK ∧ m = none) ∨
  (out.code = RECV_TIMEOUT ∧ m = some (cs! "M-Bus tcp transport layer response timeout has been reached.")) ∨
  (out.code = RECV_ERROR ∧ m = some (cs! "M-Bus tcp transport layer failed to read data.")) ∨
  (out.code = RECV_RESET ∧ m = some (cs! "M-Bus tcp transport layer connection closed by remote host.")) ∨
  (out.code = RECV_INVALID ∧ m = some (cs! "M-Bus layer failed to parse data."))

theorem readEv_short {n : Nat} {es es' : List Ev} {bs : List Byte} (h : readEv n es = (some (.data bs), es')) : bs.length ≤ n := by
  cases es with
  | nil => simp [readEv] at h
  | cons a es => 
    cases a with
    | data c => simp only [readEv, Prod.mk.injEq, Option.some.injEq, Ev.data.injEq] at h; rw [← h.1]; simp; omega
    | _ => simp [readEv] at h

theorem tcpLoopE_says (n : Nat) : ∀ (es : List Ev) (bs : List Byte) (f : Frame), evWeight es ≤ n → Open bs →
    ∃ out m, tcpLoopE es f (rbuf bs) bs.length (need bs - 1) none = .ok (out, m) ∧ TcpSays out m := by
  induction n with
  | zero =>
    intro es bs f hw ho
    have hb := ho.bound
    have hn := ho.need_pos
    rw [tcpLoopE, if_neg (by show ¬ (_ > 2048); omega)]
    cases es with
    | nil => simp only [readEv]; exact ⟨_, _, rfl, .inr (.inl ⟨rfl, rfl⟩)⟩
    | cons a es => cases a <;> (simp only [evWeight] at hw; omega)
  | succ n ih =>
    intro es bs f hw ho
    have hb := ho.bound
    have hn := ho.need_pos
    rw [tcpLoopE, if_neg (by show ¬ (_ > 2048); omega)]
    rw [show need bs - 1 + 1 = need bs by omega]
    split
    · exact ⟨_, _, rfl, .inr (.inl ⟨rfl, rfl⟩)⟩
    · rename_i es' hr
      exact ih _ _ _ (by have := readEv_lighter (by omega) hr; omega) ho
    · exact ⟨_, _, rfl, .inr (.inl ⟨rfl, rfl⟩)⟩
    · exact ⟨_, _, rfl, .inr (.inr (.inl ⟨rfl, rfl⟩))⟩
    · rename_i c es' hr
      have hlt := readEv_lighter (by omega) hr
      have hcl := readEv_short hr
      split
      · exact ⟨_, _, rfl, .inr (.inr (.inr (.inl ⟨rfl, rfl⟩)))⟩
      rw [store_rbuf bs c (by omega)]
      obtain ⟨f', hp, hs⟩ := parseE_rbuf f (bs ++ c)
      simp only [List.length_append] at hp
      simp only [hp]
      split
      · rename_i hpos
        have hnone : says (bs ++ c) = none := by
          apply Classical.byContradiction
          intro k
          have := hs.mpr k
          omega
        have := ih es' (bs ++ c) f' (by omega) (.inr hpos)
        rw [Open.need_code hpos, List.length_append] at this
        rw [hnone]
        exact this
      · split
        · exact ⟨_, _, rfl, .inr (.inr (.inr (.inr ⟨rfl, rfl⟩)))⟩
        · rename_i h1 h2
          have hnone : says (bs ++ c) = none := by
            apply Classical.byContradiction
            intro k
            exact h2 (hs.mpr k)
          rw [hnone]
          exact ⟨_, _, rfl, .inl ⟨rfl, rfl⟩⟩

/-- the message of each result code of the serial transport -/
def SerialSays (out : RecvOut) (m : Said) : Prop :=
  (out.code = RECV_OK ∧ m = none) ∨
  (out.code = RECV_TIMEOUT ∧ m = some (cs! "Got null pointer to frame, data or zero data_size.")) ∨
  (out.code = RECV_ERROR ∧ m = none) ∨
  (out.code = RECV_INVALID ∧ ∃ bs, out.event = some bs ∧ m = says bs)

theorem serialTail_says (f : Frame) (es : List Ev) (bs : List Byte) (r : Int) (m : Said) (hm : m = says bs) (h0 : r = 0 → m = none) :
    SerialSays (serialTail f es (rbuf bs) bs.length r) m := by
  unfold serialTail
  by_cases hb : bs = []
  · subst hb
    rw [if_pos (show ([] : List Byte).length = 0 from rfl)]
    exact .inr (.inl ⟨rfl, hm⟩)
  · rw [if_neg (by simpa using hb)]
    by_cases hr : r ≠ 0
    · rw [if_pos hr]
      exact .inr (.inr (.inr ⟨rfl, bs, by simp only [rbuf_take], hm⟩))
    · rw [if_neg hr]
      exact .inl ⟨rfl, h0 (by omega)⟩

theorem serialLoopE_says (n : Nat) : ∀ (es : List Ev) (bs : List Byte) (f : Frame) (to : Nat), evWeight es + (3 - to) ≤ n → Open bs →
    (bs = [] → to = 0) →
    ∃ out m, serialLoopE es f (rbuf bs) bs.length (need bs - 1) to none = .ok (out, m) ∧ SerialSays out m := by
  have quiet : ∀ (f : Frame) (bs : List Byte), Open bs → bs ≠ [] → says bs = none := by
    intro f bs ho hb
    rcases ho with h | h
    · exact absurd h hb
    · obtain ⟨f', _, hs⟩ := parseE_rbuf f bs
      apply Classical.byContradiction
      intro k
      have := hs.mpr k
      omega
  induction n with
  | zero =>
    intro es bs f to hw ho hto
    have hb := ho.bound
    have hn := ho.need_pos
    rw [serialLoopE_step, if_neg (by show ¬ (_ > 2048); omega)]
    cases es with
    | nil =>
      simp only [readEv]
      rw [if_pos (by omega)]
      refine ⟨_, _, rfl, serialTail_says _ _ _ _ _ ?_ (fun _ => rfl)⟩
      exact (quiet f bs ho (fun k => by have := hto k; omega)).symm
    | cons a es => cases a <;> (simp only [evWeight] at hw; omega)
  | succ n ih =>
    intro es bs f to hw ho hto
    have hb := ho.bound
    have hn := ho.need_pos
    rw [serialLoopE_step, if_neg (by show ¬ (_ > 2048); omega)]
    rw [show need bs - 1 + 1 = need bs by omega]
    have parsed : ∀ (c : List Byte) (es' : List Ev) (to' : Nat), evWeight es' + (3 - to') ≤ n → (bs ++ c = [] → to' ≥ 0) →
      ∃ out m, (match mbusParseE f (rbuf (bs ++ c)) (bs.length + c.length) with
          | .error e => .error e
          | .ok (remaining, f, t) =>
            if remaining > 0 then serialLoopE es' f (rbuf (bs ++ c)) (bs.length + c.length) (remaining.toNat - 1) to' (t <|> none)
            else .ok (serialTail f es' (rbuf (bs ++ c)) (bs.length + c.length) remaining, t <|> none) : C (RecvOut × Said)) = .ok (out, m) ∧
        SerialSays out m := by
      intro c es' to' hw' _
      obtain ⟨f', hp, hs⟩ := parseE_rbuf f (bs ++ c)
      simp only [List.length_append] at hp
      simp only [hp]
      have hor : (says (bs ++ c) <|> none) = says (bs ++ c) := by cases says (bs ++ c) <;> rfl
      rw [hor]
      split
      · rename_i hpos
        have hne : bs ++ c ≠ [] := by intro k; rw [k, code_nil] at hpos; omega
        rw [quiet f _ (.inr hpos) hne]
        have := ih es' (bs ++ c) f' to' hw' (.inr hpos) (fun k => absurd k hne)
        rw [Open.need_code hpos, List.length_append] at this
        exact this
      · refine ⟨_, _, rfl, ?_⟩
        rw [← List.length_append]
        refine serialTail_says _ _ _ _ _ rfl (fun k => ?_)
        apply Classical.byContradiction
        intro k'
        have := hs.mpr k'
        omega
    split
    · rename_i es' hr
      have : es' = es := by
        cases es with
        | nil => simp [readEv] at hr; exact hr
        | cons a es => cases a <;> simp [readEv] at hr
      subst this
      split
      · refine ⟨_, _, rfl, serialTail_says _ _ _ _ _ ?_ (fun _ => rfl)⟩
        exact (quiet f bs ho (fun k => by have := hto k; omega)).symm
      · have := parsed [] es' (to + 1) (by omega) (fun _ => by omega)
        simpa using this
    · rename_i c es' hr
      have hlt := readEv_lighter (by omega) hr
      have hcl := readEv_short hr
      have hto' : 3 - (if c.length = 0 then to + 1 else to) ≤ 3 - to := by split <;> omega
      have hto2 : c.length = 0 → (if c.length = 0 then to + 1 else to) = to + 1 := fun h => if_pos h
      generalize (if c.length = 0 then to + 1 else to) = to' at *
      split
      · rename_i hx
        have := hto2 hx.1
        refine ⟨_, _, rfl, serialTail_says _ _ _ _ _ ?_ (fun _ => rfl)⟩
        exact (quiet f bs ho (fun k => by have := hto k; omega)).symm
      rw [store_rbuf bs c (by omega)]
      exact parsed c es' to' (by omega) (fun _ => by omega)
    · exact ⟨_, _, rfl, .inr (.inr (.inl ⟨rfl, rfl⟩))⟩
end Mbus
