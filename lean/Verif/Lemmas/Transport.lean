import Verif.Spec.Transport
import Verif.Lemmas.Pack
namespace Mbus
open Spec

/-- receive buffer after `bs` -/
def rbuf (bs : List Byte) : List Byte := bs ++ List.replicate (2048 - bs.length) 0

theorem store_rbuf (bs c : List Byte) (h : bs.length + c.length ≤ 2048) : store (rbuf bs) bs.length c = .ok (rbuf (bs ++ c)) := by
  induction c generalizing bs with
  | nil => simp [store]
  | cons b c ih =>
    simp only [List.length_cons] at h
    have hw : wr (rbuf bs) bs.length b = .ok (rbuf (bs ++ [b])) := by
      rw [wr_ok (by simp [rbuf]; omega)]
      congr 1
      unfold rbuf
      rw [List.set_append_right _ _ (by omega)]
      have : 2048 - bs.length = (2048 - (bs ++ [b]).length) + 1 := by simp; omega
      rw [this, List.replicate_succ]
      simp
    unfold store
    rw [hw, ok_bind]
    have := ih (bs ++ [b]) (by simp; omega)
    rw [List.length_append, List.length_singleton] at this
    rw [this]
    simp

theorem rbuf_take (bs : List Byte) : (rbuf bs).take bs.length = bs := by simp [rbuf]

theorem parse_rbuf (f : Frame) (bs : List Byte) :
    ∃ f', mbusParse f (rbuf bs) bs.length = .ok (code bs, f') ∧
      (code bs = 0 → (bs.head? = some 0xE5 ∧ Carries f' .ack) ∨
        (∃ t : Telegram, t ≠ .ack ∧ t.Legal ∧ bs = t.wire ∧ Carries f' t)) := by
  obtain ⟨f', h1, h2⟩ := parse_code f bs
  refine ⟨f', ?_, fun h => ?_⟩
  · rw [parse_take f (rbuf bs) bs.length (by simp [rbuf]), rbuf_take, h1]
  · rcases h2 h with h | ⟨t, a, b, c, d, _⟩
    · exact .inl ⟨h.1, h.2.1⟩
    · exact .inr ⟨t, a, b, c, d⟩

/-- how many bytes the loop asks for after `bs` -/
def need (bs : List Byte) : Nat := if bs = [] then 1 else (code bs).toNat

/-- states the receive loops can be in -/
def Open (bs : List Byte) : Prop := bs = [] ∨ 0 < code bs

theorem Open.need_pos {bs : List Byte} (h : Open bs) : 1 ≤ need bs := by
  unfold need; rcases h with rfl | h
  · simp
  · split <;> omega

theorem Open.bound {bs : List Byte} (h : Open bs) : bs.length + need bs ≤ 261 := by
  unfold need; rcases h with rfl | h
  · simp
  · have := code_pos_bound bs h
    split
    · subst_vars; simp
    · omega

theorem code_nil : code [] = -1 := rfl

theorem Open.need_code {bs : List Byte} (h : 0 < code bs) : need bs = (code bs).toNat := by
  unfold need
  rw [if_neg]
  rintro rfl
  rw [code_nil] at h; omega

/-- a legal telegram that continues `bs` still needs at least `need bs` bytes -/
theorem need_le (bs rest : List Byte) (t : Telegram) (hl : t.Legal) (hr : rest ≠ []) (h : bs ++ rest = t.wire) :
    need bs ≤ rest.length ∧ Open bs := by
  have hlen : 0 < rest.length := List.length_pos_iff.mpr hr
  by_cases hb : bs = []
  · subst hb; exact ⟨by simp [need]; omega, .inl rfl⟩
  · have hbl : 0 < bs.length := List.length_pos_iff.mpr hb
    have ha : t ≠ .ack := by
      rintro rfl
      have := congrArg List.length h
      simp [Telegram.wire] at this
      omega
    have hw : t.wire.length = bs.length + rest.length := by rw [← h]; simp
    have ht : t.wire.take bs.length = bs := by rw [← h]; simp
    have := code_prefix t hl ha bs.length hbl (by omega)
    rw [ht] at this
    refine ⟨?_, .inr this.1⟩
    rw [Open.need_code this.1]; omega

/-- the head of an open non-empty state is not the ACK byte -/
theorem Open.head {bs : List Byte} (h : 0 < code bs) : bs.head? ≠ some 0xE5 := by
  rcases code_pos_cases bs h with ⟨h, _⟩ | ⟨h, _⟩ | ⟨l, q, h, _⟩
  · rw [h]; decide
  · rw [h]; decide
  · rw [h]; simp

/-- reading up to `need bs` bytes keeps the state within one telegram: an accepted result is a whole telegram -/
theorem accept_exact (bs c : List Byte) (ho : Open bs) (hc : c ≠ []) (hn : c.length ≤ need bs) (f' : Frame)
    (h : (bs ++ c).head? = some 0xE5 ∧ Carries f' .ack) : bs ++ c = [0xE5] := by
  rcases ho with rfl | ho
  · simp only [need, if_pos] at hn
    match c, hc with
    | [x], _ => simpa using h.1
  · exfalso
    have h2 := h.1
    cases bs with
    | nil => rw [code_nil] at ho; omega
    | cons b bs => exact Open.head ho (by simpa using h2)

theorem code_neg_hopeless (bs : List Byte) (hb : bs ≠ []) (h : code bs < 0) : Hopeless bs := by
  rintro t hl ⟨more, hm⟩
  by_cases hr : more = []
  · subst hr
    rw [List.append_nil] at hm
    rw [hm, code_wire t hl] at h; omega
  · have := (need_le bs more t hl hr hm).2
    rcases this with h' | h'
    · exact hb h'
    · omega

theorem Open.noTelegram {bs : List Byte} (h : Open bs) : NoTelegram bs := by
  rintro t hl ⟨more, hm⟩
  rcases h with rfl | h
  · have := congrArg List.length hm
    cases t <;> simp [Telegram.wire] at this
  · by_cases ha : t = .ack
    · subst ha
      refine Open.head h ?_
      rw [← hm]; rfl
    · have hlen : t.wire.length + more.length = bs.length := by rw [← hm]; simp
      rcases wire_shape t ha hl with ⟨w1, w2⟩ | ⟨l, q, w1, w2, w3⟩
      · have hh : bs.head? = some 0x10 := by rw [← hm]; exact head_append w1
        rcases code_pos_cases bs h with ⟨_, c, _⟩ | ⟨c, _⟩ | ⟨l, q, c, _⟩
        · omega
        · rw [hh] at c; revert c; decide
        · rw [c] at hh; simp at hh
      · have hh : bs.head? = some 0x68 := by rw [← hm, w1]; rfl
        rcases code_pos_cases bs h with ⟨c, _⟩ | ⟨c, d, _⟩ | ⟨l', q', c, _, d, _⟩
        · rw [hh] at c; revert c; decide
        · omega
        · rw [w1] at hm
          rw [c] at hm
          simp only [List.cons_append, List.cons.injEq] at hm
          obtain ⟨_, e, _⟩ := hm
          subst e
          omega

theorem noTelegram_step (bs c : List Byte) (ho : Open bs) (hn : c.length ≤ need bs) (h : code (bs ++ c) ≠ 0) :
    NoTelegram (bs ++ c) := by
  intro t hl hp
  rcases List.prefix_or_prefix_of_prefix hp (List.prefix_append bs c) with h1 | ⟨more, h1⟩
  · exact ho.noTelegram t hl h1
  · by_cases hm : more = []
    · subst hm
      rw [List.append_nil] at h1
      exact ho.noTelegram t hl (by rw [← h1]; exact List.prefix_refl _)
    · have hle := (need_le bs more t hl hm h1).1
      have : t.wire = bs ++ c := by
        apply hp.eq_of_length_le
        rw [← h1]; simp; omega
      rw [← this, code_wire t hl] at h
      exact h rfl

/-! ### TCP -/

theorem need_succ {bs : List Byte} (ho : Open bs) : need bs - 1 + 1 = need bs := by have := ho.need_pos; omega

theorem guard_ok {bs : List Byte} (ho : Open bs) : ¬ bs.length + (need bs - 1 + 1) > PACKET_BUFF_SIZE := by
  have := ho.bound; have := ho.need_pos; unfold PACKET_BUFF_SIZE; omega

theorem tcp_nil {bs : List Byte} (ho : Open bs) (f : Frame) :
    tcpLoop [] f (rbuf bs) bs.length (need bs - 1) = .ok ⟨RECV_TIMEOUT, f, [], none⟩ := by
  rw [tcpLoop, if_neg (guard_ok ho)]; rfl

theorem tcp_eintr {bs : List Byte} (ho : Open bs) (f : Frame) (es : List Ev) :
    tcpLoop (.eintr :: es) f (rbuf bs) bs.length (need bs - 1) = tcpLoop es f (rbuf bs) bs.length (need bs - 1) := by
  rw [tcpLoop, if_neg (guard_ok ho)]; rfl

theorem tcp_eagain {bs : List Byte} (ho : Open bs) (f : Frame) (es : List Ev) :
    tcpLoop (.eagain :: es) f (rbuf bs) bs.length (need bs - 1) = .ok ⟨RECV_TIMEOUT, f, es, none⟩ := by
  rw [tcpLoop, if_neg (guard_ok ho)]; rfl

theorem tcp_err {bs : List Byte} (ho : Open bs) (f : Frame) (es : List Ev) :
    tcpLoop (.err :: es) f (rbuf bs) bs.length (need bs - 1) = .ok ⟨RECV_ERROR, f, es, none⟩ := by
  rw [tcpLoop, if_neg (guard_ok ho)]; rfl

/-- rest of the script after reading `n` bytes of the chunk `c` -/
def cut (n : Nat) (c : List Byte) (es : List Ev) : List Ev := if c.length ≤ n then es else .data (c.drop n) :: es

theorem tcp_zero {bs : List Byte} (ho : Open bs) (f : Frame) (es : List Ev) :
    tcpLoop (.data [] :: es) f (rbuf bs) bs.length (need bs - 1) = .ok ⟨RECV_RESET, f, es, none⟩ := by
  rw [tcpLoop, if_neg (guard_ok ho)]; rfl

theorem tcp_data {bs : List Byte} (ho : Open bs) (f : Frame) (c : List Byte) (hc : c ≠ []) (es : List Ev) :
    let x := c.take (need bs)
    ∃ f', mbusParse f (rbuf (bs ++ x)) (bs ++ x).length = .ok (code (bs ++ x), f') ∧
      (code (bs ++ x) = 0 → ∃ t : Telegram, t.Legal ∧ bs ++ x = t.wire ∧ Carries f' t) ∧
      tcpLoop (.data c :: es) f (rbuf bs) bs.length (need bs - 1) =
        if 0 < code (bs ++ x) then tcpLoop (cut (need bs) c es) f' (rbuf (bs ++ x)) (bs ++ x).length (need (bs ++ x) - 1)
        else .ok ⟨if code (bs ++ x) < 0 then RECV_INVALID else RECV_OK, f', cut (need bs) c es, some (bs ++ x)⟩ := by
  intro x
  have hx : x ≠ [] := by
    have := ho.need_pos
    simp only [x]
    intro h
    rw [List.take_eq_nil_iff] at h
    rcases h with h | h
    · omega
    · exact hc h
  have hxl : x.length ≤ need bs := by simp only [x, List.length_take]; omega
  obtain ⟨f', hp, hz⟩ := parse_rbuf f (bs ++ x)
  refine ⟨f', hp, fun h => ?_, ?_⟩
  · rcases hz h with h' | ⟨t, _, hl, ht, hcar⟩
    · exact ⟨.ack, trivial, accept_exact bs x ho hx hxl f' h', h'.2⟩
    · exact ⟨t, hl, ht, hcar⟩
  · have hst := store_rbuf bs x (by have := ho.bound; omega)
    have h0 : ¬ x.length = 0 := by simpa using hx
    rw [tcpLoop, if_neg (guard_ok ho)]
    simp only [need_succ ho, readEv, ← List.length_append]
    rw [show (List.take (need bs) c) = x from rfl]
    simp only [if_neg h0, hst, hp, rbuf_take]
    by_cases hpos : 0 < code (bs ++ x)
    · rw [if_pos hpos, if_pos hpos, Open.need_code hpos]; rfl
    · rw [if_neg hpos, if_neg hpos]; rfl


theorem feeds_nil {skip : Ev} {k es es1} (h : Feeds skip k es [] es1) : k = 0 ∧ es1 = es := by
  generalize hb : ([] : List Byte) = bs at h
  cases h with
  | done => exact ⟨rfl, rfl⟩
  | skip h1 => exact absurd hb.symm h1
  | whole c h1 => cases c with
    | nil => exact absurd rfl h1
    | cons => simp at hb
  | part c d es h1 => exact absurd hb.symm h1

theorem feeds_cut {skip : Ev} (hskip : ∀ d, d ≠ [] → skip ≠ .data d) {k n : Nat} {c : List Byte} {es more es1}
    (hx : c.take n ≠ []) (h : Feeds skip k (cut n c es) more es1) : Feeds skip k (.data c :: es) (c.take n ++ more) es1 := by
  have hc : c ≠ [] := by rintro rfl; simp at hx
  unfold cut at h
  by_cases hn : c.length ≤ n
  · rw [if_pos hn] at h
    rw [List.take_of_length_le hn]
    exact .whole c hc h
  · rw [if_neg hn] at h
    have hd : c.drop n ≠ [] := by simp; omega
    generalize hE : (Ev.data (c.drop n) :: es) = E at h
    cases h with
    | done =>
      subst hE
      rw [List.append_nil]
      have := Feeds.part (skip := skip) (c.take n) (c.drop n) es hx hd
      rwa [List.take_append_drop] at this
    | skip h1 h2 =>
      injection hE with h3
      exact absurd h3.symm (hskip _ hd)
    | whole c' h1 h2 =>
      injection hE with h3 h4
      injection h3 with h3
      subst h3 h4
      rw [← List.append_assoc, List.take_append_drop]
      exact .whole c hc h2
    | part d e es' h1 h2 =>
      injection hE with h3 h4
      injection h3 with h3
      subst h4
      have := Feeds.part (skip := skip) (c.take n ++ more) e es (by simp [h1]) h2
      rwa [List.append_assoc, ← h3, List.take_append_drop] at this

theorem feeds_uncut {skip : Ev} (hskip : ∀ d, d ≠ [] → skip ≠ .data d) {k n : Nat} {c : List Byte} {es rest es1}
    (hc : c ≠ []) (hn : n ≤ rest.length) (hn1 : 1 ≤ n) (h : Feeds skip k (.data c :: es) rest es1) :
    ∃ rest', rest = c.take n ++ rest' ∧ Feeds skip k (cut n c es) rest' es1 := by
  generalize hE : (Ev.data c :: es) = E at h
  unfold cut
  cases h with
  | done => simp at hn; omega
  | skip h1 h2 =>
    injection hE with h3
    exact absurd h3.symm (hskip _ hc)
  | @whole k es' bs' es1' c' h1 h2 =>
    injection hE with h3 h4
    injection h3 with h3
    subst h3 h4
    by_cases hl : c.length ≤ n
    · rw [if_pos hl, List.take_of_length_le hl]; exact ⟨bs', rfl, h2⟩
    · rw [if_neg hl]
      refine ⟨c.drop n ++ bs', by rw [← List.append_assoc, List.take_append_drop], .whole _ (by simp; omega) h2⟩
  | part c' d es' h1 h2 =>
    injection hE with h3 h4
    injection h3 with h3
    subst h3 h4
    have hd : 0 < d.length := List.length_pos_iff.mpr h2
    rw [if_neg (by simp; omega)]
    refine ⟨rest.drop n, ?_, ?_⟩
    · rw [List.take_append_of_le_length hn, List.take_append_drop]
    · rw [List.drop_append_of_le_length hn]
      by_cases hz : rest.drop n = []
      · rw [hz]; exact .done _
      · exact .part _ d es hz h2

theorem cut_weight {n : Nat} (hn : 1 ≤ n) (c : List Byte) (es : List Ev) : evWeight (cut n c es) < evWeight (.data c :: es) := by
  unfold cut
  split
  · simp only [evWeight]; omega
  · simp only [evWeight, List.length_drop]; omega

theorem take_need_ne {bs : List Byte} (ho : Open bs) {c : List Byte} (hc : c ≠ []) : c.take (need bs) ≠ [] := by
  have := ho.need_pos
  intro h
  rw [List.take_eq_nil_iff] at h
  rcases h with h | h
  · omega
  · exact hc h

theorem eintr_skip : ∀ d : List Byte, d ≠ [] → Ev.eintr ≠ .data d := by intro d _; simp

/-- the loop delivers a telegram fed in any chunking -/
theorem tcp_complete (n : Nat) : ∀ (es : List Ev) (bs : List Byte) (f : Frame) (k : Nat) (rest : List Byte) (es' : List Ev)
    (t : Telegram), evWeight es ≤ n → t.Legal → bs ++ rest = t.wire → rest ≠ [] → Feeds .eintr k es rest es' →
    ∃ f', tcpLoop es f (rbuf bs) bs.length (need bs - 1) = .ok ⟨RECV_OK, f', es', some t.wire⟩ ∧ Carries f' t := by
  induction n with
  | zero =>
    intro es bs f k rest es' t hw hl hb hr hf
    cases hf with
    | done => exact absurd rfl hr
    | skip => simp only [evWeight] at hw; omega
    | whole => simp only [evWeight] at hw; omega
    | part => simp only [evWeight] at hw; omega
  | succ n ih =>
    intro es bs f k rest es' t hw hl hb hr hf
    obtain ⟨hneed, ho⟩ := need_le bs rest t hl hr hb
    match es, hf with
    | [], hf => cases hf; exact absurd rfl hr
    | .eintr :: es, hf =>
      rw [tcp_eintr ho]
      have : ∃ k, Feeds .eintr k es rest es' := by
        cases hf with
        | done => exact absurd rfl hr
        | skip h1 h2 => exact ⟨_, h2⟩
      obtain ⟨k, h2⟩ := this
      exact ih es bs f k rest es' t (by simp only [evWeight] at hw; omega) hl hb hr h2
    | .eagain :: es, hf => cases hf; exact absurd rfl hr
    | .err :: es, hf => cases hf; exact absurd rfl hr
    | .data c :: es, hf =>
      have hc : c ≠ [] := by
        cases hf with
        | done => exact absurd rfl hr
        | whole c h => exact h
        | part c d es h => simp [h]
      obtain ⟨rest', hre, hf'⟩ := feeds_uncut eintr_skip hc hneed ho.need_pos hf
      obtain ⟨f', _, hz, he⟩ := tcp_data ho f c hc es
      rw [he]
      rw [hre, ← List.append_assoc] at hb
      by_cases hr' : rest' = []
      · subst hr'
        rw [List.append_nil] at hb
        have hc0 : code (bs ++ c.take (need bs)) = 0 := by rw [hb]; exact code_wire t hl
        obtain ⟨t', hl', ht', hcar⟩ := hz hc0
        have : t' = t := wire_inj _ _ (by rw [← ht', hb])
        subst this
        rw [if_neg (by omega), if_neg (by omega), (feeds_nil hf').2, hb]
        exact ⟨f', rfl, hcar⟩
      · have ho' := (need_le _ rest' t hl hr' hb).2
        have hpos : 0 < code (bs ++ c.take (need bs)) := by
          rcases ho' with h | h
          · exact absurd (List.append_eq_nil_iff.mp h).2 (take_need_ne ho hc)
          · exact h
        rw [if_pos hpos]
        exact ih _ _ f' k rest' es' t (by have := cut_weight ho.need_pos c es; omega) hl hb hr' hf'

/-- How a receive over TCP ends, as a relation between the script and the outcome: `bs` are the bytes already received,
`more` those received by the rest of the run, `es1` what the run left after the last of them. -/
def TcpEnd (bs more : List Byte) (es1 : List Ev) (out : RecvOut) : Prop :=
  (out.code = RECV_OK ∧ more ≠ [] ∧ out.rest = es1 ∧ out.event = some (bs ++ more) ∧
    ∃ t : Telegram, t.Legal ∧ bs ++ more = t.wire ∧ Carries out.frame t) ∨
  (out.code = RECV_INVALID ∧ more ≠ [] ∧ out.rest = es1 ∧ out.event = some (bs ++ more) ∧ Hopeless (bs ++ more) ∧ NoTelegram (bs ++ more)) ∨
  (out.event = none ∧ NoTelegram (bs ++ more) ∧ ∃ j,
    (out.code = RECV_TIMEOUT ∧ es1 = List.replicate j .eintr ∧ out.rest = []) ∨
    (out.code = RECV_TIMEOUT ∧ es1 = List.replicate j .eintr ++ .eagain :: out.rest) ∨
    (out.code = RECV_ERROR ∧ es1 = List.replicate j .eintr ++ .err :: out.rest) ∨
    (out.code = RECV_RESET ∧ es1 = List.replicate j .eintr ++ .data [] :: out.rest))

theorem TcpEnd.assoc {bs x more : List Byte} {es1 : List Ev} {out : RecvOut} (h : TcpEnd (bs ++ x) more es1 out) :
    TcpEnd bs (x ++ more) es1 out := by
  unfold TcpEnd at h ⊢
  rw [List.append_assoc] at h
  rcases h with ⟨a, b, c⟩ | ⟨a, b, c⟩ | c
  · exact .inl ⟨a, by simp [b], c⟩
  · exact .inr (.inl ⟨a, by simp [b], c⟩)
  · exact .inr (.inr c)

theorem tcp_sound (n : Nat) : ∀ (es : List Ev) (bs : List Byte) (f : Frame), evWeight es ≤ n → Open bs →
    ∃ out more k es1, tcpLoop es f (rbuf bs) bs.length (need bs - 1) = .ok out ∧ Feeds .eintr k es more es1 ∧
      (bs ++ more).length ≤ 261 ∧ TcpEnd bs more es1 out := by
  induction n with
  | zero =>
    intro es bs f hw ho
    cases es with
    | nil => 
      refine ⟨_, [], 0, [], tcp_nil ho f, .done _, by have := ho.bound; simp; omega, .inr (.inr ⟨rfl, by simpa using ho.noTelegram, 0, .inl ⟨rfl, rfl, rfl⟩⟩)⟩
    | cons a es => cases a <;> (simp only [evWeight] at hw; omega)
  | succ n ih =>
    intro es bs f hw ho
    have hb : bs.length ≤ 261 := by have := ho.bound; omega
    match es with
    | [] =>
      exact ⟨_, [], 0, [], tcp_nil ho f, .done _, by simpa using hb, .inr (.inr ⟨rfl, by simpa using ho.noTelegram, 0, .inl ⟨rfl, rfl, rfl⟩⟩)⟩
    | .eagain :: es =>
      exact ⟨_, [], 0, _, tcp_eagain ho f es, .done _, by simpa using hb, .inr (.inr ⟨rfl, by simpa using ho.noTelegram, 0, .inr (.inl ⟨rfl, rfl⟩)⟩)⟩
    | .err :: es =>
      exact ⟨_, [], 0, _, tcp_err ho f es, .done _, by simpa using hb, .inr (.inr ⟨rfl, by simpa using ho.noTelegram, 0, .inr (.inr (.inl ⟨rfl, rfl⟩))⟩)⟩
    | .data [] :: es =>
      exact ⟨_, [], 0, _, tcp_zero ho f es, .done _, by simpa using hb, .inr (.inr ⟨rfl, by simpa using ho.noTelegram, 0, .inr (.inr (.inr ⟨rfl, rfl⟩))⟩)⟩
    | .eintr :: es =>
      rw [tcp_eintr ho]
      obtain ⟨out, more, k, es1, h1, h2, h3, h4⟩ := ih es bs f (by simp only [evWeight] at hw; omega) ho
      by_cases hm : more = []
      · subst hm
        obtain ⟨rfl, rfl⟩ := feeds_nil h2
        refine ⟨out, [], 0, _, h1, .done _, h3, ?_⟩
        rcases h4 with ⟨_, h, _⟩ | ⟨_, h, _⟩ | ⟨a, b, j, h⟩
        · exact absurd rfl h
        · exact absurd rfl h
        · refine .inr (.inr ⟨a, b, j + 1, ?_⟩)
          simpa only [List.replicate_succ, List.cons_append, List.cons.injEq, true_and] using h
      · exact ⟨out, more, k + 1, es1, h1, .skip hm h2, h3, h4⟩
    | .data (c0 :: c) :: es =>
      have hc : c0 :: c ≠ [] := by simp
      obtain ⟨f', _, hz, he⟩ := tcp_data ho f (c0 :: c) hc es
      rw [he]
      have hx := take_need_ne ho hc
      have hxl : ((c0 :: c).take (need bs)).length ≤ need bs := by simp only [List.length_take]; omega
      have hwt := cut_weight ho.need_pos (c0 :: c) es
      generalize (c0 :: c) = C at *
      generalize hX : C.take (need bs) = x at *
      by_cases hpos : 0 < code (bs ++ x)
      · rw [if_pos hpos]
        obtain ⟨out, more, k, es1, h1, h2, h3, h4⟩ := ih (cut (need bs) C es) (bs ++ x) f' (by omega) (.inr hpos)
        refine ⟨out, x ++ more, k, es1, h1, ?_, by rw [← List.append_assoc]; exact h3, h4.assoc⟩
        rw [← hX]
        exact feeds_cut eintr_skip (by rw [hX]; exact hx) h2
      · rw [if_neg hpos]
        refine ⟨_, x, 0, cut (need bs) C es, rfl, ?_, by have := ho.bound; simp; omega, ?_⟩
        · have := feeds_cut (k := 0) eintr_skip (by rw [hX]; exact hx) (Feeds.done (cut (need bs) C es))
          rwa [hX, List.append_nil] at this
        · by_cases hneg : code (bs ++ x) < 0
          · exact .inr (.inl ⟨if_pos hneg, hx, rfl, rfl, code_neg_hopeless _ (by simp [hx]) hneg, noTelegram_step bs x ho hxl (by omega)⟩)
          · obtain ⟨t, hl, ht, hcar⟩ := hz (by omega)
            exact .inl ⟨if_neg hneg, hx, rfl, rfl, t, hl, ht, hcar⟩

/-! ### Serial line -/

theorem zero_skip : ∀ d : List Byte, d ≠ [] → Ev.data [] ≠ .data d := by
  intro d h e; injection e with e; exact h e.symm

/-- the result of an empty read -/
theorem serial_zero {bs : List Byte} (ho : Open bs) (f : Frame) (t : Nat) (es : List Ev) (es' : List Ev)
    (hes : es = .data [] :: es' ∨ (es = [] ∧ es' = [])) :
    ∃ f', serialLoop es f (rbuf bs) bs.length (need bs - 1) t =
      if bs = [] then .ok ⟨RECV_TIMEOUT, if 3 ≤ t + 1 then f else f', es', none⟩
      else if 3 ≤ t + 1 then .ok ⟨RECV_INVALID, f, es', some bs⟩
      else serialLoop es' f' (rbuf bs) bs.length (need bs - 1) (t + 1) := by
  obtain ⟨f', hp, _⟩ := parse_rbuf f bs
  refine ⟨f', ?_⟩
  have htail : ∀ (g : Frame) (r : Int), r ≠ 0 → serialTail g es' (rbuf bs) bs.length r =
      if bs = [] then ⟨RECV_TIMEOUT, g, es', none⟩ else ⟨RECV_INVALID, g, es', some bs⟩ := by
    intro g r hr
    unfold serialTail
    by_cases hb : bs = []
    · subst hb; rfl
    · rw [if_neg (by simpa using hb), if_neg hb, if_pos hr, rbuf_take]
  have key : serialLoop es f (rbuf bs) bs.length (need bs - 1) t =
      if 3 ≤ t + 1 then .ok (serialTail f es' (rbuf bs) bs.length (((need bs - 1 : Nat) : Int) + 1))
      else if code bs > 0 then serialLoop es' f' (rbuf bs) bs.length ((code bs).toNat - 1) (t + 1)
      else .ok (serialTail f' es' (rbuf bs) bs.length (code bs)) := by
    rcases hes with rfl | ⟨rfl, rfl⟩
    · rw [serialLoop, if_neg (guard_ok ho)]
      simp only [readEv, List.take_nil, List.length_nil, true_and, Nat.zero_le, if_true, store, Nat.add_zero, hp]
    · rw [serialLoop, if_neg (guard_ok ho)]
      simp only [readEv, hp]
  rw [key]
  by_cases hb : bs = []
  · subst hb
    rw [if_pos rfl, htail _ _ (by omega), if_pos rfl]
    rw [if_neg (show ¬ code [] > 0 by rw [code_nil]; omega), htail _ _ (by rw [code_nil]; omega), if_pos rfl]
    by_cases h3 : 3 ≤ t + 1
    · simp only [if_pos h3]
    · simp only [if_neg h3]
  · have hpos : 0 < code bs := by rcases ho with h | h; exact absurd h hb; exact h
    rw [if_neg hb, htail _ _ (by omega), if_neg hb, if_pos hpos, Open.need_code hpos]

theorem serial_bad {bs : List Byte} (ho : Open bs) (f : Frame) (t : Nat) (e : Ev) (he : ∀ c, e ≠ .data c) (es : List Ev) :
    serialLoop (e :: es) f (rbuf bs) bs.length (need bs - 1) t = .ok ⟨RECV_ERROR, f, es, none⟩ := by
  rw [serialLoop, if_neg (guard_ok ho)]
  cases e with
  | data c => exact absurd rfl (he c)
  | eintr => rfl
  | eagain => rfl
  | err => rfl

theorem serial_data {bs : List Byte} (ho : Open bs) (f : Frame) (t : Nat) (c : List Byte) (hc : c ≠ []) (es : List Ev) :
    let x := c.take (need bs)
    ∃ f', mbusParse f (rbuf (bs ++ x)) (bs ++ x).length = .ok (code (bs ++ x), f') ∧
      (code (bs ++ x) = 0 → ∃ t : Telegram, t.Legal ∧ bs ++ x = t.wire ∧ Carries f' t) ∧
      serialLoop (.data c :: es) f (rbuf bs) bs.length (need bs - 1) t =
        if 0 < code (bs ++ x) then serialLoop (cut (need bs) c es) f' (rbuf (bs ++ x)) (bs ++ x).length (need (bs ++ x) - 1) t
        else .ok ⟨if code (bs ++ x) < 0 then RECV_INVALID else RECV_OK, f', cut (need bs) c es, some (bs ++ x)⟩ := by
  intro x
  have hx : x ≠ [] := take_need_ne ho hc
  have hxl : x.length ≤ need bs := by simp only [x, List.length_take]; omega
  obtain ⟨f', hp, hz⟩ := parse_rbuf f (bs ++ x)
  refine ⟨f', hp, fun h => ?_, ?_⟩
  · rcases hz h with h' | ⟨t, _, hl, ht, hcar⟩
    · exact ⟨.ack, trivial, accept_exact bs x ho hx hxl f' h', h'.2⟩
    · exact ⟨t, hl, ht, hcar⟩
  · have hst := store_rbuf bs x (by have := ho.bound; omega)
    have h0 : ¬ x.length = 0 := by simpa using hx
    rw [serialLoop, if_neg (guard_ok ho)]
    simp only [need_succ ho, readEv, ← List.length_append]
    rw [show (List.take (need bs) c) = x from rfl]
    simp only [h0, false_and, if_false, hst, hp]
    by_cases hpos : 0 < code (bs ++ x)
    · rw [if_pos hpos, if_pos hpos, Open.need_code hpos]; rfl
    · rw [if_neg hpos, if_neg hpos]
      unfold serialTail
      rw [if_neg (by simp; exact fun _ => hx), rbuf_take]
      by_cases hn : code (bs ++ x) < 0
      · rw [if_pos hn, if_pos (by omega)]; rfl
      · rw [if_neg hn, if_neg (by omega)]; rfl

theorem serial_complete (n : Nat) : ∀ (es : List Ev) (bs : List Byte) (f : Frame) (k to : Nat) (rest : List Byte) (es' : List Ev)
    (t : Telegram), evWeight es ≤ n → t.Legal → bs ++ rest = t.wire → rest ≠ [] → Feeds (.data []) k es rest es' →
    k + to ≤ 2 → (bs ≠ [] ∨ es.head? ≠ some (.data [])) →
    ∃ f', serialLoop es f (rbuf bs) bs.length (need bs - 1) to = .ok ⟨RECV_OK, f', es', some t.wire⟩ ∧ Carries f' t := by
  induction n with
  | zero =>
    intro es bs f k to rest es' t hw hl hb hr hf _ _
    cases hf with
    | done => exact absurd rfl hr
    | skip => simp only [evWeight] at hw; omega
    | whole => simp only [evWeight] at hw; omega
    | part => simp only [evWeight] at hw; omega
  | succ n ih =>
    intro es bs f k to rest es' t hw hl hb hr hf hk hd
    obtain ⟨hneed, ho⟩ := need_le bs rest t hl hr hb
    match es, hf with
    | [], hf => cases hf; exact absurd rfl hr
    | .eintr :: es, hf => cases hf; exact absurd rfl hr
    | .eagain :: es, hf => cases hf; exact absurd rfl hr
    | .err :: es, hf => cases hf; exact absurd rfl hr
    | .data [] :: es, hf =>
      have hbs : bs ≠ [] := by
        rcases hd with h | h
        · exact h
        · exact absurd rfl h
      obtain ⟨k', hk', h2⟩ : ∃ k', k = k' + 1 ∧ Feeds (.data []) k' es rest es' := by
        generalize hE : (Ev.data [] :: es) = E at hf
        cases hf with
        | done => exact absurd rfl hr
        | skip h1 h2 => injection hE with _ h; subst h; exact ⟨_, rfl, h2⟩
        | whole c h1 h2 => injection hE with h; injection h with h; exact absurd h.symm h1
        | part c d es h1 h2 => injection hE with h; injection h with h; simp [h1] at h
      obtain ⟨f', he⟩ := serial_zero ho f to (.data [] :: es) es (.inl rfl)
      rw [he, if_neg hbs, if_neg (by omega)]
      exact ih es bs f' k' (to + 1) rest es' t (by simp only [evWeight, List.length_nil] at hw; omega) hl hb hr h2 (by omega) (.inl hbs)
    | .data (c0 :: c) :: es, hf =>
      have hc : c0 :: c ≠ [] := by simp
      generalize (c0 :: c) = c at *
      obtain ⟨rest', hre, hf'⟩ := feeds_uncut zero_skip hc hneed ho.need_pos hf
      obtain ⟨f', _, hz, he⟩ := serial_data ho f to c hc es
      rw [he]
      rw [hre, ← List.append_assoc] at hb
      by_cases hr' : rest' = []
      · subst hr'
        rw [List.append_nil] at hb
        have hc0 : code (bs ++ c.take (need bs)) = 0 := by rw [hb]; exact code_wire t hl
        obtain ⟨t', hl', ht', hcar⟩ := hz hc0
        have : t' = t := wire_inj _ _ (by rw [← ht', hb])
        subst this
        rw [if_neg (by omega), if_neg (by omega), (feeds_nil hf').2, hb]
        exact ⟨f', rfl, hcar⟩
      · have ho' := (need_le _ rest' t hl hr' hb).2
        have hne : bs ++ c.take (need bs) ≠ [] := by
          intro h; exact absurd (List.append_eq_nil_iff.mp h).2 (take_need_ne ho hc)
        have hpos : 0 < code (bs ++ c.take (need bs)) := by
          rcases ho' with h | h
          · exact absurd h hne
          · exact h
        rw [if_pos hpos]
        exact ih _ _ f' k to rest' es' t (by have := cut_weight ho.need_pos c es; omega) hl hb hr' hf' hk (.inl hne)

/-- How a receive over the serial line ends; `to` empty reads were seen before, `k` between the bytes of `more`. -/
def SerialEnd (bs more : List Byte) (to k : Nat) (es1 : List Ev) (out : RecvOut) : Prop :=
  (out.code = RECV_OK ∧ more ≠ [] ∧ k + to ≤ 2 ∧ out.rest = es1 ∧ out.event = some (bs ++ more) ∧
    ∃ t : Telegram, t.Legal ∧ bs ++ more = t.wire ∧ Carries out.frame t) ∨
  (out.code = RECV_INVALID ∧ more ≠ [] ∧ k + to ≤ 2 ∧ out.rest = es1 ∧ out.event = some (bs ++ more) ∧
    Hopeless (bs ++ more) ∧ NoTelegram (bs ++ more)) ∨
  (out.code = RECV_INVALID ∧ bs ++ more ≠ [] ∧ out.event = some (bs ++ more) ∧ NoTelegram (bs ++ more) ∧ ∃ j,
    (k + to + j = 3 ∧ es1 = List.replicate j (.data []) ++ out.rest) ∨
    (k + to + j < 3 ∧ es1 = List.replicate j (.data []) ∧ out.rest = [])) ∨
  (out.code = RECV_TIMEOUT ∧ bs ++ more = [] ∧ out.event = none ∧
    (es1 = .data [] :: out.rest ∨ (es1 = [] ∧ out.rest = []))) ∨
  (out.code = RECV_ERROR ∧ out.event = none ∧ NoTelegram (bs ++ more) ∧ ∃ j e, k + to + j ≤ 2 ∧ (∀ c, e ≠ .data c) ∧
    es1 = List.replicate j (.data []) ++ e :: out.rest)

theorem SerialEnd.assoc {bs x more : List Byte} {to k : Nat} {es1 : List Ev} {out : RecvOut} (h : SerialEnd (bs ++ x) more to k es1 out) :
    SerialEnd bs (x ++ more) to k es1 out := by
  unfold SerialEnd at h ⊢
  rw [List.append_assoc] at h
  rcases h with ⟨a, b, c⟩ | ⟨a, b, c⟩ | c
  · exact .inl ⟨a, by simp [b], c⟩
  · exact .inr (.inl ⟨a, by simp [b], c⟩)
  · exact .inr (.inr c)

theorem serial_sound (n : Nat) : ∀ (es : List Ev) (bs : List Byte) (f : Frame) (to : Nat), evWeight es + (2 - to) ≤ n → Open bs →
    to ≤ 2 → ∃ out more k es1, serialLoop es f (rbuf bs) bs.length (need bs - 1) to = .ok out ∧ Feeds (.data []) k es more es1 ∧
      (bs ++ more).length ≤ 261 ∧ SerialEnd bs more to k es1 out := by
  induction n with
  | zero =>
    intro es bs f to hw ho hto
    have hb : bs.length ≤ 261 := by have := ho.bound; omega
    cases es with
    | nil =>
      obtain ⟨f', he⟩ := serial_zero ho f to [] [] (.inr ⟨rfl, rfl⟩)
      by_cases hbs : bs = []
      · rw [if_pos hbs] at he
        exact ⟨_, [], 0, [], he, .done _, by simpa using hb, .inr (.inr (.inr (.inl ⟨rfl, by simpa using hbs, rfl, .inr ⟨rfl, rfl⟩⟩)))⟩
      · rw [if_neg hbs, if_pos (by omega)] at he
        exact ⟨_, [], 0, [], he, .done _, by simpa using hb, .inr (.inr (.inl ⟨rfl, by simpa using hbs, by simp,
          by simpa using ho.noTelegram, 0, .inr ⟨by omega, rfl, rfl⟩⟩))⟩
    | cons a es => cases a <;> (simp only [evWeight] at hw; omega)
  | succ n ih =>
    intro es bs f to hw ho hto
    have hb : bs.length ≤ 261 := by have := ho.bound; omega
    have hbad : ∀ (e : Ev) (es' : List Ev), es = e :: es' → (∀ c, e ≠ .data c) → ∃ out more k es1,
        serialLoop es f (rbuf bs) bs.length (need bs - 1) to = .ok out ∧ Feeds (.data []) k es more es1 ∧
        (bs ++ more).length ≤ 261 ∧ SerialEnd bs more to k es1 out := by
      rintro e es' rfl he
      exact ⟨_, [], 0, _, serial_bad ho f to e he es', .done _, by simpa using hb, .inr (.inr (.inr (.inr ⟨rfl, rfl,
        by simpa using ho.noTelegram, 0, e, by omega, he, rfl⟩)))⟩
    match es with
    | .eintr :: es => exact hbad _ _ rfl (by simp)
    | .eagain :: es => exact hbad _ _ rfl (by simp)
    | .err :: es => exact hbad _ _ rfl (by simp)
    | [] =>
      obtain ⟨f', he⟩ := serial_zero ho f to [] [] (.inr ⟨rfl, rfl⟩)
      by_cases hbs : bs = []
      · rw [if_pos hbs] at he
        exact ⟨_, [], 0, [], he, .done _, by simpa using hb, .inr (.inr (.inr (.inl ⟨rfl, by simpa using hbs, rfl, .inr ⟨rfl, rfl⟩⟩)))⟩
      · by_cases h3 : 3 ≤ to + 1
        · rw [if_neg hbs, if_pos h3] at he
          exact ⟨_, [], 0, [], he, .done _, by simpa using hb, .inr (.inr (.inl ⟨rfl, by simpa using hbs, by simp,
            by simpa using ho.noTelegram, 0, .inr ⟨by omega, rfl, rfl⟩⟩))⟩
        · rw [if_neg hbs, if_neg h3] at he
          obtain ⟨out, more, k, es1, h1, h2, h3', h4⟩ := ih [] bs f' (to + 1) (by omega) ho (by omega)
          generalize hE : ([] : List Ev) = E at h2
          cases h2 with
          | done =>
            subst hE
            refine ⟨out, [], 0, [], by rw [he]; exact h1, .done _, h3', ?_⟩
            rcases h4 with ⟨_, h, _⟩ | ⟨_, h, _⟩ | ⟨a, b, c, d, j, h⟩ | ⟨a, b, c⟩ | ⟨a, b, c, j, e, h, h', h''⟩
            · exact absurd rfl h
            · exact absurd rfl h
            · refine .inr (.inr (.inl ⟨a, b, c, d, 0, .inr ⟨by omega, rfl, ?_⟩⟩))
              rcases h with ⟨_, h⟩ | ⟨_, h, h'⟩
              · exact (List.append_eq_nil_iff.mp h.symm).2
              · exact h'
            · exact absurd (by simpa using b) hbs
            · simp at h''
          | skip => simp at hE
          | whole => simp at hE
          | part => simp at hE
    | .data [] :: es =>
      obtain ⟨f', he⟩ := serial_zero ho f to (.data [] :: es) es (.inl rfl)
      by_cases hbs : bs = []
      · rw [if_pos hbs] at he
        exact ⟨_, [], 0, _, he, .done _, by simpa using hb, .inr (.inr (.inr (.inl ⟨rfl, by simpa using hbs, rfl, .inl rfl⟩)))⟩
      · by_cases h3 : 3 ≤ to + 1
        · rw [if_neg hbs, if_pos h3] at he
          exact ⟨_, [], 0, _, he, .done _, by simpa using hb, .inr (.inr (.inl ⟨rfl, by simpa using hbs, by simp,
            by simpa using ho.noTelegram, 1, .inl ⟨by omega, rfl⟩⟩))⟩
        · rw [if_neg hbs, if_neg h3] at he
          obtain ⟨out, more, k, es1, h1, h2, h3', h4⟩ := ih es bs f' (to + 1) (by simp only [evWeight, List.length_nil] at hw; omega) ho (by omega)
          by_cases hm : more = []
          · subst hm
            obtain ⟨rfl, rfl⟩ := feeds_nil h2
            refine ⟨out, [], 0, _, by rw [he]; exact h1, .done _, h3', ?_⟩
            rcases h4 with ⟨_, h, _⟩ | ⟨_, h, _⟩ | ⟨a, b, c, d, j, h⟩ | ⟨a, b, c⟩ | ⟨a, b, c, j, e, h, h', h''⟩
            · exact absurd rfl h
            · exact absurd rfl h
            · refine .inr (.inr (.inl ⟨a, b, c, d, j + 1, ?_⟩))
              rcases h with ⟨h, h'⟩ | ⟨h, h', h''⟩
              · exact .inl ⟨by omega, by rw [h', List.replicate_succ]; rfl⟩
              · exact .inr ⟨by omega, by rw [h', List.replicate_succ], h''⟩
            · exact absurd (by simpa using b) hbs
            · exact .inr (.inr (.inr (.inr ⟨a, b, c, j + 1, e, by omega, h', by rw [h'', List.replicate_succ]; rfl⟩)))
          · refine ⟨out, more, k + 1, es1, by rw [he]; exact h1, .skip hm h2, h3', ?_⟩
            have : k + (to + 1) = k + 1 + to := by omega
            unfold SerialEnd at h4 ⊢
            rw [this] at h4
            exact h4
    | .data (c0 :: c) :: es =>
      have hc : c0 :: c ≠ [] := by simp
      obtain ⟨f', _, hz, he⟩ := serial_data ho f to (c0 :: c) hc es
      have hx := take_need_ne ho hc
      have hxl : ((c0 :: c).take (need bs)).length ≤ need bs := by simp only [List.length_take]; omega
      have hwt := cut_weight ho.need_pos (c0 :: c) es
      rw [he]
      generalize (c0 :: c) = C at *
      generalize hX : C.take (need bs) = x at *
      by_cases hpos : 0 < code (bs ++ x)
      · rw [if_pos hpos]
        obtain ⟨out, more, k, es1, h1, h2, h3, h4⟩ := ih (cut (need bs) C es) (bs ++ x) f' to (by omega) (.inr hpos) hto
        refine ⟨out, x ++ more, k, es1, h1, ?_, by rw [← List.append_assoc]; exact h3, h4.assoc⟩
        rw [← hX]
        exact feeds_cut zero_skip (by rw [hX]; exact hx) h2
      · rw [if_neg hpos]
        refine ⟨_, x, 0, cut (need bs) C es, rfl, ?_, by have := ho.bound; simp; omega, ?_⟩
        · have := feeds_cut (k := 0) zero_skip (by rw [hX]; exact hx) (Feeds.done (cut (need bs) C es))
          rwa [hX, List.append_nil] at this
        · by_cases hneg : code (bs ++ x) < 0
          · exact .inr (.inl ⟨if_pos hneg, hx, by omega, rfl, rfl, code_neg_hopeless _ (by simp [hx]) hneg, noTelegram_step bs x ho hxl (by omega)⟩)
          · obtain ⟨t, hl, ht, hcar⟩ := hz (by omega)
            exact .inl ⟨if_neg hneg, hx, by omega, rfl, rfl, t, hl, ht, hcar⟩

/-- three empty reads inside a telegram -/
theorem serial_stall (n : Nat) : ∀ (es : List Ev) (bs : List Byte) (f : Frame) (k to : Nat) (xs : List Byte) (es' : List Ev)
    (t : Telegram) (more : List Byte), evWeight es ≤ n → t.Legal → bs ++ xs ++ more = t.wire → more ≠ [] →
    Feeds (.data []) k es xs (List.replicate (3 - (k + to)) (.data []) ++ es') →
    k + to ≤ 2 → bs ++ xs ≠ [] → (bs ≠ [] ∨ es.head? ≠ some (.data [])) →
    ∃ f', serialLoop es f (rbuf bs) bs.length (need bs - 1) to = .ok ⟨RECV_INVALID, f', es', some (bs ++ xs)⟩ := by
  induction n with
  | zero =>
    intro es bs f k to xs es' t more hw hl hb hm hf hk hne hd
    generalize hT : (List.replicate (3 - (k + to)) (Ev.data []) ++ es') = T at hf
    cases hf with
    | done =>
      exfalso
      subst hT
      rw [show 3 - (0 + to) = (2 - to) + 1 by omega, List.replicate_succ] at hw
      simp only [List.cons_append, evWeight, List.length_nil] at hw; omega
    | skip => simp only [evWeight] at hw; omega
    | whole => simp only [evWeight] at hw; omega
    | part => simp only [evWeight] at hw; omega
  | succ n ih =>
    intro es bs f k to xs es' t more hw hl hb hm hf hk hne hd
    obtain ⟨hneed, ho⟩ := need_le bs (xs ++ more) t hl (by simp [hm]) (by rw [← List.append_assoc]; exact hb)
    by_cases hx : xs = []
    · subst hx
      have hbs : bs ≠ [] := by simpa using hne
      obtain ⟨rfl, he⟩ := feeds_nil hf
      rw [show 3 - (0 + to) = (2 - to) + 1 by omega, List.replicate_succ, List.cons_append] at he
      subst he
      obtain ⟨f', he⟩ := serial_zero ho f to _ (List.replicate (2 - to) (.data []) ++ es') (.inl rfl)
      rw [he, if_neg hbs, List.append_nil]
      by_cases h3 : 3 ≤ to + 1
      · rw [if_pos h3, show 2 - to = 0 by omega]
        exact ⟨f, rfl⟩
      · rw [if_neg h3]
        have := ih (List.replicate (2 - to) (.data []) ++ es') bs f' 0 (to + 1) [] es' t more
          (by simp only [evWeight, List.length_nil] at hw; omega) hl hb hm
          (by rw [show 3 - (0 + (to + 1)) = 2 - to by omega]; exact .done _) (by omega) hne (.inl hbs)
        simpa using this
    · match es, hf with
      | [], hf => exfalso; generalize hE : (List.replicate _ _ ++ _ : List Ev) = E at hf; cases hf; exact hx rfl
      | .eintr :: es, hf => exfalso; generalize hE : (List.replicate _ _ ++ _ : List Ev) = E at hf; cases hf; exact hx rfl
      | .eagain :: es, hf => exfalso; generalize hE : (List.replicate _ _ ++ _ : List Ev) = E at hf; cases hf; exact hx rfl
      | .err :: es, hf => exfalso; generalize hE : (List.replicate _ _ ++ _ : List Ev) = E at hf; cases hf; exact hx rfl
      | .data [] :: es, hf =>
        have hbs : bs ≠ [] := by
          rcases hd with h | h
          · exact h
          · exact absurd rfl h
        generalize hT : (List.replicate (3 - (k + to)) (Ev.data []) ++ es') = T at hf
        obtain ⟨k', hk', h2⟩ : ∃ k', k = k' + 1 ∧ Feeds (.data []) k' es xs T := by
          generalize hE : (Ev.data [] :: es) = E at hf
          cases hf with
          | done => exact absurd rfl hx
          | skip h1 h2 => injection hE with _ h; subst h; exact ⟨_, rfl, h2⟩
          | whole c h1 h2 => injection hE with h; injection h with h; exact absurd h.symm h1
          | part c d es h1 h2 => injection hE with h; injection h with h; simp [h1] at h
        obtain ⟨f', he⟩ := serial_zero ho f to (.data [] :: es) es (.inl rfl)
        rw [he, if_neg hbs, if_neg (by omega)]
        exact ih es bs f' k' (to + 1) xs es' t more (by simp only [evWeight, List.length_nil] at hw; omega) hl hb hm
          (by rw [show 3 - (k' + (to + 1)) = 3 - (k + to) by omega, hT]; exact h2) (by omega) hne (.inl hbs)
      | .data (c0 :: c) :: es, hf =>
        have hc : c0 :: c ≠ [] := by simp
        generalize (c0 :: c) = c at *
        obtain ⟨f', _, hz, he⟩ := serial_data ho f to c hc es
        by_cases hlen : need bs ≤ xs.length
        · obtain ⟨rest', hre, hf'⟩ := feeds_uncut zero_skip hc hlen ho.need_pos hf
          have hne' : bs ++ c.take (need bs) ≠ [] := by
            intro h; exact absurd (List.append_eq_nil_iff.mp h).2 (take_need_ne ho hc)
          have hb' : bs ++ c.take (need bs) ++ rest' ++ more = t.wire := by rw [List.append_assoc bs, ← hre]; exact hb
          have ho' := (need_le (bs ++ c.take (need bs)) (rest' ++ more) t hl (by simp [hm]) (by rw [← List.append_assoc]; exact hb')).2
          have hpos : 0 < code (bs ++ c.take (need bs)) := by
            rcases ho' with h | h
            · exact absurd h hne'
            · exact h
          rw [he, if_pos hpos, hre]
          have := ih _ _ f' k to rest' es' t more (by have := cut_weight ho.need_pos c es; omega) hl hb' hm hf' hk (fun h => hne' (List.append_eq_nil_iff.mp h).1) (.inl hne')
          rwa [List.append_assoc bs] at this
        · -- the chunk is shorter than what the loop asks for
          generalize hT : (List.replicate (3 - (k + to)) (Ev.data []) ++ es') = T at hf
          have hTh : T.head? = some (.data []) := by
            rw [← hT, show 3 - (k + to) = (2 - (k + to)) + 1 by omega, List.replicate_succ]; rfl
          obtain ⟨xs', hxs, h2⟩ : ∃ xs', xs = c ++ xs' ∧ Feeds (.data []) k es xs' T := by
            generalize hE : (Ev.data c :: es) = E at hf
            cases hf with
            | done => exact absurd rfl hx
            | skip h1 h2 => injection hE with h; injection h with h; exact absurd h hc
            | whole c h1 h2 => injection hE with h h'; injection h with h; subst h h'; exact ⟨_, rfl, h2⟩
            | part c' d es h1 h2 => simp [h2] at hTh
          have hcl : c.length ≤ need bs := by
            have := congrArg List.length hxs
            simp at this; omega
          have htk : c.take (need bs) = c := List.take_of_length_le hcl
          have hct : cut (need bs) c es = es := if_pos hcl
          rw [htk, hct] at he
          have hne' : bs ++ c ≠ [] := by simp [hc]
          have hb' : bs ++ c ++ xs' ++ more = t.wire := by rw [List.append_assoc bs, ← hxs]; exact hb
          have ho' := (need_le (bs ++ c) (xs' ++ more) t hl (by simp [hm]) (by rw [← List.append_assoc]; exact hb')).2
          have hpos : 0 < code (bs ++ c) := by
            rcases ho' with h | h
            · exact absurd h hne'
            · exact h
          rw [he, if_pos hpos, hxs]
          have := ih es (bs ++ c) f' k to xs' es' t more (by simp only [evWeight] at hw; omega) hl hb' hm (by rw [hT]; exact h2) hk (by simp [hc]) (.inl hne')
          rwa [List.append_assoc bs] at this

end Mbus
