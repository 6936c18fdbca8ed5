import Verif.Spec.Meter
import Verif.Lemmas.Exchange
import Verif.Lemmas.RecFree
namespace Mbus
open Spec

theorem after_append (a : Byte) (fate : Nat → Fate) (r : List Byte) : ∀ (rs : List (List Byte)) (n : Nat) (m : Meter),
    Meter.after a fate n (rs ++ [r]) m =
      if (fate (n + rs.length)).heard then (Meter.after a fate n rs m).hear a r else Meter.after a fate n rs m := by
  intro rs
  induction rs with
  | nil => intro n m; rfl
  | cons x rs ih =>
    intro n m
    rw [List.cons_append, Meter.after, ih, Meter.after, show n + 1 + rs.length = n + (x :: rs).length by simp; omega]

/-- control field of request number `i` -/
def ctl (i : Nat) : Byte := if i % 2 = 0 then 0x7B else 0x5B

/-- the meter has sent `p` telegrams and its FCB fits -/
def Spec.Meter.Ok (m : Meter) (p : Nat) : Prop := m.pos = p ∧ m.fcb = decide (p % 2 = 1)

theorem hear_request (a : Byte) (m : Meter) (i : Nat) (h : m.Ok i ∨ m.Ok (i + 1)) :
    (m.hear a (Telegram.short (ctl i) a).wire).Ok (i + 1) := by
  unfold Meter.hear ctl
  have hne : (Telegram.short 0x5B a).wire ≠ (Telegram.short 0x7B a).wire := by simp [Telegram.wire]
  rcases Nat.mod_two_eq_zero_or_one i with hi | hi
  · rw [if_pos hi, if_pos rfl]
    rcases h with ⟨h1, h2⟩ | ⟨h1, h2⟩
    · rw [if_neg (by rw [h2]; simp [hi])]
      exact ⟨by simp [h1], by simp; omega⟩
    · rw [if_pos (by rw [h2]; simp; omega)]
      exact ⟨h1, h2⟩
  · rw [show (if i % 2 = 0 then (0x7B : Byte) else 0x5B) = 0x5B from if_neg (by omega), if_neg hne, if_pos rfl]
    rcases h with ⟨h1, h2⟩ | ⟨h1, h2⟩
    · rw [if_neg (by rw [h2]; simp [hi])]
      exact ⟨by simp [h1], by simp; omega⟩
    · rw [if_pos (by rw [h2]; simp; omega)]
      exact ⟨h1, h2⟩

/-- a frame that requests telegram `i` -/
structure ReqFrame (a : Byte) (i : Nat) (f : Frame) : Prop where
  type : f.type = 2
  start : f.start1 = 0x10
  stop : f.stop = 0x16
  address : f.address = a
  control : f.control = ctl i

theorem ctl_legal (a : Byte) (i : Nat) : (Telegram.short (ctl i) a).Legal := by
  show ctl i ∈ shortCodes
  unfold ctl
  split <;> decide

theorem reqFrame_packs {a : Byte} {i : Nat} {f : Frame} (h : ReqFrame a i f) : Packs f (.short (ctl i) a) :=
  packBytes_wire f (.short (ctl i) a) (ctl_legal a _) ⟨h.type, h.control, h.address⟩
    ⟨fun _ => h.stop, by rw [h.start]; rfl, fun h' => by rw [h.type] at h'; simp at h'⟩

theorem reqFrame_fixed {a : Byte} {i : Nat} {f : Frame} (h : ReqFrame a i f) : ReqFrame a i (fixed f) :=
  ⟨h.type, h.start, h.stop, h.address, h.control⟩

theorem reqFrame_flip {a : Byte} {i : Nat} {f : Frame} (h : ReqFrame a i f) :
    ReqFrame a (i + 1) { f with control := f.control ^^^ MASK_FCB } := by
  refine ⟨h.type, h.start, h.stop, h.address, ?_⟩
  show f.control ^^^ MASK_FCB = _
  rw [h.control]
  unfold ctl
  rcases Nat.mod_two_eq_zero_or_one i with hi | hi
  · rw [if_pos hi, if_neg (by omega)]; rfl
  · rw [if_neg (by omega), if_pos (by omega)]; rfl

theorem readable_parse {more : Bool} {t : Telegram} (h : ReadableT more t) (f : Frame) (hc : Carries f t) (x : FrameData) :
    ∃ x', frameDataParse f x = .ok (0, x') ∧ x'.type = DATA_VARIABLE ∧ (x'.var.more ≠ 0 ↔ more = true) ∧ f.ci = 0x72 ∧ t.Legal ∧ FromSlave t := by
  obtain ⟨c, a, p, rs, rfl, hcc, h12, h252, ht, hm⟩ := h
  obtain ⟨c1, c2, c3, c4, c5, c6⟩ := hc
  have hp : payload f = p := c6
  have hd : c &&& 0x40 = 0 := by
    simp only [List.mem_cons, List.not_mem_nil, or_false] at hcc
    rcases hcc with rfl | rfl | rfl | rfl <;> rfl
  have hl : c ∈ dataCodes := by
    simp only [List.mem_cons, List.not_mem_nil, or_false] at hcc
    rcases hcc with rfl | rfl | rfl | rfl <;> decide
  obtain ⟨v', h1, _, _, _, h5⟩ := variableParse_complete f x.var (by omega) (by omega) rs (by rw [hp]; exact ht)
  refine ⟨{ x with type := DATA_VARIABLE, var := v' }, ?_, rfl, ?_, c4, ⟨hl, h252⟩, hd⟩
  · rw [(frameDataParse_cases f x).2.2 (by rw [c2]; exact hd) c4, if_neg (by omega), h1]
    rfl
  · show v'.more ≠ 0 ↔ _
    rw [h5, ← hm, ← tiles_more ht]
    split <;> simp_all

theorem pointwise_snoc {α β : Type} {R : α → β → Prop} {as : List α} {bs : List β} {a : α} {b : β} (h : Pointwise R as bs) (hab : R a b) :
    Pointwise R (as ++ [a]) (bs ++ [b]) := by
  induction h with
  | nil => exact .cons hab .nil
  | cons h1 _ ih => exact .cons h1 ih

theorem readout_head {t : Telegram} {ts : List Telegram} (h : Readout (t :: ts)) :
    (ts = [] ∧ ReadableT false t) ∨ (ReadableT true t ∧ Readout ts) := by
  cases ts with
  | nil => exact .inl ⟨rfl, h⟩
  | cons u us => exact .inr h

theorem recv_lost (k : Kind) (env : Env) (ho : IsOpen k env) (purge : Int) (sent : List (List Byte)) (es : List Ev)
    (hc : es = [] ∨ ∃ b : Byte, es = [.data [b]] ∧ b ≠ 0xE5 ∧ b ≠ 0x10 ∧ b ≠ 0x68) (f : Frame) :
    recvFrame (busLink k env) purge ⟨es, sent⟩ f = .ok (RECV_TIMEOUT, f, ⟨[], sent⟩) ∨
    recvFrame (busLink k env) purge ⟨es, sent⟩ f = .ok (RECV_INVALID, f, ⟨[], sent⟩) := by
  rcases hc with rfl | ⟨b, rfl, hb⟩
  · exact .inl (recv_silent k env ho purge sent f)
  · unfold recvFrame
    simp only [bus_recv_noise k env ho sent b hb, ok_bind, bus_recv_silent k env ho]
    by_cases h1 : frameDirection f = MASK_DIR_M2S
    · rw [if_pos h1]; split
      · exact .inl rfl
      · exact .inr rfl
    · rw [if_neg h1]
      by_cases h2 : frameDirection f = MASK_DIR_S2M
      · rw [if_pos h2]; split
        · exact .inl rfl
        · exact .inr rfl
      · rw [if_neg h2]; exact .inr rfl

/-- one step of a session with the meter -/
theorem meter_respond (a : Byte) (ts : List Telegram) (fate : Nat → Fate) (sent : List (List Byte)) (i : Nat) (t : Telegram)
    (ht : ts[i]? = some t) (hm : (Meter.after a fate 0 sent ⟨0, false⟩).Ok i ∨ (Meter.after a fate 0 sent ⟨0, false⟩).Ok (i + 1)) :
    let sent' := sent ++ [(Telegram.short (ctl i) a).wire]
    ((Meter.after a fate 0 sent' ⟨0, false⟩).Ok i ∨ (Meter.after a fate 0 sent' ⟨0, false⟩).Ok (i + 1)) ∧
    (fate sent.length = .delivered → (Meter.after a fate 0 sent' ⟨0, false⟩).Ok (i + 1)) ∧
    (meterEnv a ts fate).respond sent' = (match fate sent.length with
      | .delivered => [.data t.wire] | .noise b => [.data [b]] | _ => []) := by
  intro sent'
  have e := after_append a fate (Telegram.short (ctl i) a).wire sent 0 ⟨0, false⟩
  rw [Nat.zero_add] at e
  have hh := hear_request a (Meter.after a fate 0 sent ⟨0, false⟩) i hm
  have hlen : sent'.length - 1 = sent.length := by simp [sent']
  refine ⟨?_, ?_, ?_⟩
  · show (Meter.after a fate 0 (sent ++ _) _).Ok i ∨ (Meter.after a fate 0 (sent ++ _) _).Ok (i + 1)
    rw [e]
    split
    · exact .inr hh
    · exact hm
  · intro hf
    show (Meter.after a fate 0 (sent ++ _) _).Ok (i + 1)
    rw [e, hf, if_pos (show Fate.delivered.heard = true from rfl)]
    exact hh
  · show (match fate (sent'.length - 1) with
      | .requestLost => [] | .replyLost => [] | .noise b => [Ev.data [b]]
      | .delivered => match ts[(Meter.after a fate 0 sent' ⟨0, false⟩).pos - 1]? with
        | some t => [.data t.wire] | none => []) = _
    rw [hlen]
    cases hf : fate sent.length with
    | requestLost => rfl
    | replyLost => rfl
    | noise b => rfl
    | delivered =>
      have : (Meter.after a fate 0 sent' ⟨0, false⟩).pos = i + 1 := by
        show (Meter.after a fate 0 (sent ++ _) _).pos = i + 1
        rw [e, hf, if_pos (show Fate.delivered.heard = true from rfl)]
        exact hh.1
      simp only [this, Nat.add_sub_cancel, ht]

theorem readout_loop (k : Kind) (a : Byte) (ts : List Telegram) (fate : Nat → Fate)
    (hnoise : ∀ n b, fate n = .noise b → b ≠ 0xE5 ∧ b ≠ 0x10 ∧ b ≠ 0x68) (purge : Int) (hpurge : purge ≠ PURGE_S2M)
    (max : Nat) (hfair : ∀ n, ∃ j, j ≤ max ∧ fate (n + j) = .delivered) (mf : Int) (hmf : (ts.length : Int) ≤ mf) :
    ∀ (rest : List Telegram) (pre : List Telegram), ts = pre ++ rest → Readout rest →
    ∀ (j : Nat) (sent : List (List Byte)) (req : Frame) (done : List Frame) (cur : Frame) (x : FrameData) (p : RecPtr) (retry : Nat),
      fate (sent.length + j) = .delivered → retry + j ≤ max →
      ((Meter.after a fate 0 sent ⟨0, false⟩).Ok pre.length ∨ (Meter.after a fate 0 sent ⟨0, false⟩).Ok (pre.length + 1)) →
      ReqFrame a pre.length req → Pointwise Carries done pre →
      ∃ out, sendrecvLoop ((busLink k (meterEnv a ts fate)).ops purge) max mf ⟨[], sent⟩ req done cur x p retry pre.length = .ok out ∧
        out.code = 0 ∧ Pointwise Carries out.chain ts ∧ out.recs ≠ .live := by
  have ho : IsOpen k (meterEnv a ts fate) := .inr rfl
  intro rest
  induction rest with
  | nil => intro pre _ h; exact h.elim
  | cons t rest ih =>
    intro pre hts hread j
    have hti : ts[pre.length]? = some t := by rw [hts]; simp
    have hlt : pre.length < ts.length := by rw [hts]; simp
    have step : ∀ (sent : List (List Byte)) (req : Frame) (done : List Frame) (cur : Frame) (x : FrameData) (p : RecPtr) (retry : Nat),
      fate sent.length = .delivered → retry ≤ max →
      ((Meter.after a fate 0 sent ⟨0, false⟩).Ok pre.length ∨ (Meter.after a fate 0 sent ⟨0, false⟩).Ok (pre.length + 1)) →
      ReqFrame a pre.length req → Pointwise Carries done pre →
      ∃ out, sendrecvLoop ((busLink k (meterEnv a ts fate)).ops purge) max mf ⟨[], sent⟩ req done cur x p retry pre.length = .ok out ∧
        out.code = 0 ∧ Pointwise Carries out.chain ts ∧ out.recs ≠ .live := by
      intro sent req done cur x p retry hf hrj hm hreq hdone
      obtain ⟨m1, m2, m3⟩ := meter_respond a ts fate sent pre.length t hti hm
      rw [hf] at m3
      have m2 := m2 hf
      have hread' : ∃ more, ReadableT more t := by
        rcases readout_head hread with ⟨_, h⟩ | ⟨h, _⟩
        · exact ⟨_, h⟩
        · exact ⟨_, h⟩
      have hL : t.Legal ∧ FromSlave t := by
        obtain ⟨more, c, a, p, rs, rfl, hcc, h12, h252, ht, hm⟩ := hread'
        simp only [List.mem_cons, List.not_mem_nil, or_false] at hcc
        rcases hcc with rfl | rfl | rfl | rfl <;> exact ⟨⟨by decide, h252⟩, rfl⟩
      rw [sendrecvLoop, dif_neg (by omega)]
      have hs := bus_send k (meterEnv a ts fate) ho ⟨[], sent⟩ req _ (ctl_legal a _) (reqFrame_packs hreq)
      have hs' : ((busLink k (meterEnv a ts fate)).ops purge).send ⟨[], sent⟩ req =
          .ok (0, fixed req, ⟨[.data t.wire], sent ++ [(Telegram.short (ctl pre.length) a).wire]⟩) := by
        show (busLink k (meterEnv a ts fate)).send ⟨[], sent⟩ req = _
        rw [hs, if_pos (show (meterEnv a ts fate).wret _ _ = ((Telegram.short (ctl pre.length) a).wire.length : Int) from rfl)]
        unfold busAfter
        simp only [List.nil_append, m3]
      rw [hs']
      simp only
      rw [if_neg (by decide)]
      obtain ⟨cur', hr1, hr2⟩ := recv_clean k (meterEnv a ts fate) ho purge hpurge (sent ++ [(Telegram.short (ctl pre.length) a).wire]) t hL.1 hL.2 cur
      have hr' : ((busLink k (meterEnv a ts fate)).ops purge).recv ⟨[.data t.wire], sent ++ [(Telegram.short (ctl pre.length) a).wire]⟩ cur = _ := hr1
      rw [hr']
      simp only
      rw [if_pos trivial]
      have hp' : ((busLink k (meterEnv a ts fate)).ops purge).purge ⟨[], sent ++ [(Telegram.short (ctl pre.length) a).wire]⟩ = _ :=
        purge_silent k (meterEnv a ts fate) ho purge _
      rw [hp']
      simp only
      have fin : ∀ more, ReadableT more t → ∃ x', frameDataParse cur' x = .ok (0, x') ∧ x'.type = DATA_VARIABLE ∧
          (x'.var.more ≠ 0 ↔ more = true) ∧ ∃ p', (p.parse cur' x').free = .ok p' ∧ p' ≠ .live := by
        intro more hR
        obtain ⟨x', e1, e2, e3, e4, _⟩ := readable_parse hR cur' hr2 x
        refine ⟨x', e1, e2, e3, ?_⟩
        rw [parse_pointer p cur' x x' e4 e1]
        split
        · exact ⟨_, rfl, by decide⟩
        · exact ⟨_, rfl, by decide⟩
      rcases readout_head hread with ⟨hnil, hR⟩ | ⟨hR, hrest⟩
      · obtain ⟨x', e1, e2, e3, p', e4, e5⟩ := fin _ hR
        rw [e1]
        simp only
        rw [if_neg (by decide), dif_neg (by rintro ⟨_, h, _⟩; exact absurd (e3.mp h) (by decide)), e4]
        refine ⟨_, rfl, rfl, ?_, e5⟩
        rw [hts, hnil]
        exact pointwise_snoc hdone hr2
      · obtain ⟨x', e1, e2, e3, p', e4, e5⟩ := fin _ hR
        have hlen : 0 < rest.length := by
          cases rest with
          | nil => exact hrest.elim
          | cons _ _ => simp
        have hlen2 : ts.length = pre.length + 1 + rest.length := by rw [hts]; simp; omega
        rw [e1]
        simp only
        rw [if_neg (by decide), dif_pos ⟨e2, e3.mpr rfl, by omega, by omega⟩, e4]
        simp only
        have hlenpre : (pre ++ [t]).length = pre.length + 1 := by simp
        obtain ⟨j', hj, hdel⟩ := hfair (sent ++ [(Telegram.short (ctl pre.length) a).wire]).length
        obtain ⟨out, o1, o2, o3⟩ := ih (pre ++ [t]) (by rw [hts]; simp) hrest j' (sent ++ [(Telegram.short (ctl pre.length) a).wire])
          { fixed req with control := (fixed req).control ^^^ MASK_FCB } (done ++ [cur']) (frameNew TYPE_ANY) x' p' 0 hdel (by omega)
          (.inl (by rw [hlenpre]; exact m2)) (by rw [hlenpre]; exact reqFrame_flip (reqFrame_fixed hreq)) (pointwise_snoc hdone hr2)
        refine ⟨out, ?_, o2, o3⟩
        rw [hlenpre] at o1
        exact o1
    induction j with
    | zero =>
      intro sent req done cur x p retry hf hrj
      exact step sent req done cur x p retry hf hrj
    | succ j ihj =>
      intro sent req done cur x p retry hf hrj hm hreq hdone
      have lost : ∀ es, (meterEnv a ts fate).respond (sent ++ [(Telegram.short (ctl pre.length) a).wire]) = es →
          (es = [] ∨ ∃ b : Byte, es = [.data [b]] ∧ b ≠ 0xE5 ∧ b ≠ 0x10 ∧ b ≠ 0x68) →
          ∃ out, sendrecvLoop ((busLink k (meterEnv a ts fate)).ops purge) max mf ⟨[], sent⟩ req done cur x p retry pre.length = .ok out ∧
            out.code = 0 ∧ Pointwise Carries out.chain ts ∧ out.recs ≠ .live := by
        intro es hes hc
        obtain ⟨m1, _, _⟩ := meter_respond a ts fate sent pre.length t hti hm
        rw [sendrecvLoop, dif_neg (by omega)]
        have hs := bus_send k (meterEnv a ts fate) ho ⟨[], sent⟩ req _ (ctl_legal a _) (reqFrame_packs hreq)
        have hs' : ((busLink k (meterEnv a ts fate)).ops purge).send ⟨[], sent⟩ req =
            .ok (0, fixed req, ⟨es, sent ++ [(Telegram.short (ctl pre.length) a).wire]⟩) := by
          show (busLink k (meterEnv a ts fate)).send ⟨[], sent⟩ req = _
          rw [hs, if_pos (show (meterEnv a ts fate).wret _ _ = ((Telegram.short (ctl pre.length) a).wire.length : Int) from rfl)]
          unfold busAfter
          simp only [List.nil_append, hes]
        rw [hs']
        simp only
        rw [if_neg (by decide)]
        have next := ihj (sent ++ [(Telegram.short (ctl pre.length) a).wire]) (fixed req) done cur x p (retry + 1)
          (by rw [← hf]; congr 1; simp; omega) (by omega) m1 (reqFrame_fixed hreq) hdone
        rcases recv_lost k (meterEnv a ts fate) ho purge (sent ++ [(Telegram.short (ctl pre.length) a).wire]) es hc cur with h | h
        · have h' : ((busLink k (meterEnv a ts fate)).ops purge).recv ⟨es, sent ++ [(Telegram.short (ctl pre.length) a).wire]⟩ cur = _ := h
          rw [h']
          simp only
          rw [if_neg (by decide), if_pos trivial]
          exact next
        · have h' : ((busLink k (meterEnv a ts fate)).ops purge).recv ⟨es, sent ++ [(Telegram.short (ctl pre.length) a).wire]⟩ cur = _ := h
          have hp' : ((busLink k (meterEnv a ts fate)).ops purge).purge ⟨[], sent ++ [(Telegram.short (ctl pre.length) a).wire]⟩ = _ :=
            purge_silent k (meterEnv a ts fate) ho purge _
          rw [h']
          simp only
          rw [if_neg (by decide), if_neg (by decide), if_pos trivial, hp']
          exact next
      obtain ⟨_, _, m3⟩ := meter_respond a ts fate sent pre.length t hti hm
      cases hnow : fate sent.length with
      | delivered => exact step sent req done cur x p retry hnow (by omega) hm hreq hdone
      | requestLost => rw [hnow] at m3; exact lost _ m3 (.inl rfl)
      | replyLost => rw [hnow] at m3; exact lost _ m3 (.inl rfl)
      | noise b => rw [hnow] at m3; exact lost _ m3 (.inr ⟨b, rfl, hnoise _ _ hnow⟩)

end Mbus
