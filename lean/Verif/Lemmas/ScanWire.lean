import Verif.Lemmas.Scan
import Verif.Lemmas.SelectWire
import Verif.Lemmas.Meter
import Verif.Props.Address
import Verif.Spec.Lossy
/- probing on a bus that loses some selections; on a faithful bus -/
namespace Mbus
open Spec

theorem foundOf_append (a b : List Act) : foundOf (a ++ b) = foundOf a ++ foundOf b := by simp [foundOf]

theorem select_lifted {σ : Type} (o : Ops σ) (s : σ) (log : List Act) (m : List Byte) (r : Int) (s' : σ) (h : selectSecondary o s m = .ok (r, s')) :
    ∃ l, selectSecondary o.logged (s, log) m = .ok (r, s', log ++ l) ∧ foundOf l = [] := by
  have hl := select_logged o s log m
  rw [h] at hl
  cases hq : selectSecondary o.logged (s, log) m with
  | error e => rw [hq] at hl; cases hl
  | ok q =>
    obtain ⟨r1, s1, log1⟩ := q
    rw [hq] at hl
    cases hl
    obtain ⟨l, h1, h2, _⟩ := select_log o s log m r (_, log1) hq
    simp only at h1
    subst h1
    refine ⟨l, rfl, ?_⟩
    cases h2 <;> rfl

theorem request_lifted {σ : Type} (o : Ops σ) (s : σ) (log : List Act) (a : Int) (s' : σ) (h : sendRequest o s a = .ok (0, s')) :
    ∃ l, sendRequest o.logged (s, log) a = .ok (0, s', log ++ l) ∧ foundOf l = [] := by
  unfold sendRequest at h ⊢
  by_cases ha : isPrimaryAddress a = false
  · rw [if_pos ha] at h; cases h
  rw [if_neg ha] at h ⊢
  simp only [logged_send_eq] at h ⊢
  generalize ({ frameNew TYPE_SHORT with control := MASK_REQ_UD2 ||| MASK_DIR_M2S, address := UInt8.ofNat a.toNat } : Frame) = f at h ⊢
  cases hs : o.send s f with
  | error e => rw [hs] at h; cases h
  | ok q =>
    obtain ⟨c, f', s1⟩ := q
    rw [hs] at h
    simp only [ok_bind] at h ⊢
    by_cases hc : c = -1
    · rw [if_pos hc] at h; cases h
    · rw [if_neg hc] at h ⊢
      cases h
      exact ⟨[.sent f c], rfl, rfl⟩

theorem readable_legal (d : Device) (h : d.Readable) : d.telegram.Legal ∧ FromSlave d.telegram := by
  obtain ⟨h1, h2, h3, rs, h4⟩ := h
  simp only [List.mem_cons, List.not_mem_nil, or_false] at h1
  have hd : d.c &&& 0x40 = 0 := by rcases h1 with h | h | h | h <;> rw [h] <;> rfl
  have hl : d.c ∈ dataCodes := by rcases h1 with h | h | h | h <;> rw [h] <;> decide
  exact ⟨⟨hl, h3⟩, hd⟩

theorem readable_address (d : Device) (h : d.Readable) (f : Frame) (hc : Carries f d.telegram) :
    f.type = TYPE_LONG ∧ getSecondaryAddress f = .ok (some (addressText d.address)) := by
  obtain ⟨h1, h2, h3, rs, h4⟩ := h
  have hr : ∃ more, ReadableT more d.telegram := by
    by_cases hm : EndsWithMore rs
    · exact ⟨true, d.c, d.a, d.p, rs, rfl, h1, h2, h3, h4, by simp [hm]⟩
    · exact ⟨false, d.c, d.a, d.p, rs, rfl, h1, h2, h3, h4, by simp [hm]⟩
  obtain ⟨more, hr⟩ := hr
  obtain ⟨x, hx, _, _, hci, _, hs⟩ := readable_parse hr f hc FrameData.new
  obtain ⟨c1, c2, c3, c4, c5, c6⟩ := hc
  have hds : f.dataSize ≤ 252 := by rw [c5]; exact h3
  have hctl : f.control &&& 0x40 = 0 := by rw [c2]; exact hs
  obtain ⟨s, hsec⟩ := (C51_secondary_address_exists f hds).mpr ⟨hctl, hci, x, hx⟩
  have := (C51_secondary_address_format f hds s hsec).1
  refine ⟨?_, ?_⟩
  · rw [c1, if_neg (by intro h0; rw [h0] at h2; simp at h2)]; rfl
  · rw [hsec, this]
    congr 3
    show (payload f).take 8 = d.p.take 8
    rw [show payload f = d.p from c6]

/-- a faithful bus loses nothing -/
theorem Spec.Faithful.lossy {devs : List Device} {env : Env} (h : Faithful devs env) : Lossy 0 devs env := by
  constructor
  · intro sent sel hsel
    obtain ⟨cs, h1, h2, h3⟩ := h.selection sent sel hsel
    exact ⟨cs, h1, h2, .inr h3⟩
  · intro sent sel hsel _
    exact h.request sent sel hsel

section
variable (k : Kind) (env : Env) (ho : IsOpen k env) (hw : Writable env) (purge : Int) (hp : purge ≠ PURGE_S2M) (devs : List Device)
  (losses : Nat) (hf : Lossy losses devs env) (hread : ∀ d ∈ devs, d.Readable)

/-- the answer to the request, once the selection said SINGLE -/
def Answer (devs : List Device) (m : List Byte) (r : Int) (fs : List (List Byte × Frame)) : Prop :=
  match devs.filter (hits m) with
  | [] => True
  | [d] => r = 1 ∧ Pointwise Reports fs [d]
  | _ => r = 2 ∧ fs = []

include ho hw hp hf hread

theorem probeSelected_wire (m : List Byte) (hm : AddressMask m) (sent : List (List Byte)) (log : List Act) (hne : devs.filter (hits m) ≠ [])
    (hans : env.respond (sent ++ [(selT m).wire]) ≠ []) :
    ∃ r a sent' l, probeSelected ((busLink k env).ops purge).logged (⟨[], sent ++ [(selT m).wire]⟩, log) = .ok (r, a, (⟨[], sent'⟩, log ++ l)) ∧
      Answer devs m r (foundOf l) := by
  obtain ⟨cs, hc, hresp, hcase⟩ := hf.request sent (selBytes m) (selBytes_length m hm) hans
  have hresp : env.respond (sent ++ [(selT m).wire] ++ [(Telegram.short 0x5B (UInt8.ofNat (253 : Int).toNat)).wire]) = evs cs := hresp
  have hcase : match devs.filter (hits m) with | [] => cs.flatten = [] | [d] => cs.flatten = d.telegram.wire | _ => Garbled cs.flatten := hcase
  have hreq := bus_sendRequest k env ho hw purge (sent ++ [(selT m).wire]) 253 (by decide)
  rw [hresp] at hreq
  obtain ⟨l1, hreq', hl1⟩ := request_lifted _ _ log _ _ hreq
  unfold probeSelected
  rw [hreq', ok_bind]
  simp only
  rw [if_neg (by decide), logged_recv_eq]
  unfold Answer
  match hM : devs.filter (hits m), hne with
  | [d], _ =>
    rw [hM] at hcase
    have hd : d ∈ devs := (List.mem_filter.mp (by rw [hM]; simp : d ∈ devs.filter (hits m))).1
    obtain ⟨hleg, hsl⟩ := readable_legal d (hread d hd)
    obtain ⟨f, h1, h2⟩ := recv_telegram k env ho purge hp (sent ++ [(selT m).wire] ++ [(Telegram.short 0x5B (UInt8.ofNat (253 : Int).toNat)).wire]) cs hc d.telegram hleg hsl hcase Frame.zero
    have h1' : ((busLink k env).ops purge).recv ⟨evs cs, sent ++ [(selT m).wire] ++ [(Telegram.short 0x5B (UInt8.ofNat (253 : Int).toNat)).wire]⟩ Frame.zero = .ok (RECV_OK, f, ⟨[], sent ++ [(selT m).wire] ++ [(Telegram.short 0x5B (UInt8.ofNat (253 : Int).toNat)).wire]⟩) := h1
    rw [h1']
    simp only [ok_bind]
    rw [if_neg (by decide), if_neg (by decide), logged_purge_eq]
    have h3 : ((busLink k env).ops purge).purge ⟨[], sent ++ [(selT m).wire] ++ [(Telegram.short 0x5B (UInt8.ofNat (253 : Int).toNat)).wire]⟩ = .ok (0, ⟨[], sent ++ [(selT m).wire] ++ [(Telegram.short 0x5B (UInt8.ofNat (253 : Int).toNat)).wire]⟩) := purge_silent k env ho purge _
    rw [h3]
    obtain ⟨ht, hadr⟩ := readable_address d (hread d hd) f h2
    have hd8 : d.address.length = 8 := by
      have := (hread d hd).2.1
      unfold Device.address
      simp; omega
    have h16 : (addressText d.address).take 16 = addressText d.address := List.take_of_length_le (by rw [addressText_length _ hd8]; exact Nat.le_refl _)
    simp only [ok_bind, ne_eq, not_true_eq_false, if_false, ht, if_true, hadr, h16]
    refine ⟨1, some (addressText d.address), sent ++ [(selT m).wire] ++ [(Telegram.short 0x5B (UInt8.ofNat (253 : Int).toNat)).wire],
      l1 ++ [.received RECV_OK f, .purged 0, .found (addressText d.address) f], ?_, rfl, ?_⟩
    · show Except.ok (PROBE_SINGLE, some (addressText d.address), ((⟨[], _⟩ : Bus), log ++ l1 ++ [Act.received RECV_OK f] ++ [Act.purged 0] ++ [Act.found (addressText d.address) f])) = _
      simp only [List.append_assoc, List.cons_append, List.nil_append]
      rfl
    rw [foundOf_append, hl1]
    exact .cons ⟨rfl, h2⟩ .nil
  | d :: e :: rest, _ =>
    rw [hM] at hcase
    obtain ⟨f, cs', h1, h2⟩ := recv_garbled k env ho purge hp (sent ++ [(selT m).wire] ++ [(Telegram.short 0x5B (UInt8.ofNat (253 : Int).toNat)).wire]) cs hc hcase
    have h1' : ((busLink k env).ops purge).recv ⟨evs cs, sent ++ [(selT m).wire] ++ [(Telegram.short 0x5B (UInt8.ofNat (253 : Int).toNat)).wire]⟩ Frame.zero = .ok (RECV_INVALID, f, ⟨evs cs', sent ++ [(selT m).wire] ++ [(Telegram.short 0x5B (UInt8.ofNat (253 : Int).toNat)).wire]⟩) := h1
    rw [h1']
    simp only [ok_bind]
    rw [if_neg (by decide), if_pos (by decide), logged_purge_eq]
    obtain ⟨p, h3⟩ := purge_drains k env ho purge (sent ++ [(selT m).wire] ++ [(Telegram.short 0x5B (UInt8.ofNat (253 : Int).toNat)).wire]) cs' h2
    have h3' : ((busLink k env).ops purge).purge ⟨evs cs', sent ++ [(selT m).wire] ++ [(Telegram.short 0x5B (UInt8.ofNat (253 : Int).toNat)).wire]⟩ = .ok (p, ⟨[], sent ++ [(selT m).wire] ++ [(Telegram.short 0x5B (UInt8.ofNat (253 : Int).toNat)).wire]⟩) := h3
    rw [h3']
    refine ⟨2, _, _, l1 ++ [.received RECV_INVALID f, .purged p], by simp only [List.append_assoc]; rfl, rfl, ?_⟩
    rw [foundOf_append, hl1]
    rfl

theorem probeLoop_wire (m : List Byte) (ha : AddressMask m) (n : Nat) : ∀ (sent : List (List Byte)) (log : List Act) (ret : Int) (j : Nat), (n = 0 → ret = 0) →
    (List.replicate j (selT m).wire <:+ sent ∧ j ≤ losses ∧ losses < j + n ∨ devs.filter (hits m) = []) →
    ∃ r a sent' l, probeLoop ((busLink k env).ops purge).logged (⟨[], sent⟩, log) m ret n = .ok (r, a, (⟨[], sent'⟩, log ++ l)) ∧
      match devs.filter (hits m) with
      | [] => r = 0 ∧ foundOf l = []
      | [d] => r = 1 ∧ Pointwise Reports (foundOf l) [d]
      | _ => r = 2 ∧ foundOf l = [] := by
  induction n with
  | zero =>
    intro sent log ret j hret hn
    have h0 : devs.filter (hits m) = [] := by
      rcases hn with h | h
      · omega
      · exact h
    refine ⟨ret, none, sent, [], by simp [probeLoop], ?_⟩
    rw [h0]
    exact ⟨hret rfl, rfl⟩
  | succ n ih =>
    intro sent log ret j _ hn
    obtain ⟨cs, hc, hresp, hcase⟩ := hf.selection sent (selBytes m) (selBytes_length m ha)
    have hresp : env.respond (sent ++ [(selT m).wire]) = evs cs := hresp
    rw [probeLoop]
    -- after silence
    have silence : cs = [] → (List.replicate (j + 1) (selT m).wire <:+ sent ++ [(selT m).wire] ∧ j + 1 ≤ losses ∧ losses < j + 1 + n ∨ devs.filter (hits m) = []) →
        ∃ r a sent' l, (selectSecondary ((busLink k env).ops purge).logged (⟨[], sent⟩, log) m >>= fun q =>
          if q.1 = PROBE_SINGLE then probeSelected ((busLink k env).ops purge).logged q.2
          else if q.1 = PROBE_ERROR ∨ q.1 = PROBE_COLLISION then .ok (q.1, none, q.2)
          else probeLoop ((busLink k env).ops purge).logged q.2 m q.1 n) = .ok (r, a, (⟨[], sent'⟩, log ++ l)) ∧
          match devs.filter (hits m) with
          | [] => r = 0 ∧ foundOf l = []
          | [d] => r = 1 ∧ Pointwise Reports (foundOf l) [d]
          | _ => r = 2 ∧ foundOf l = [] := by
      intro hcs hj
      subst hcs
      have hsel := select_silence k env ho hw purge sent m ha hresp
      obtain ⟨l, h1, h2⟩ := select_lifted _ _ log _ _ _ hsel
      rw [h1, ok_bind]
      simp only
      rw [if_neg (by decide), if_neg (by decide)]
      obtain ⟨r, a, sent', l', e1, e2⟩ := ih (sent ++ [(selT m).wire]) (log ++ l) PROBE_NOTHING (j + 1) (fun _ => rfl) hj
      refine ⟨r, a, sent', l ++ l', by rw [e1, List.append_assoc], ?_⟩
      rw [foundOf_append, h2]
      exact e2
    rcases hcase with ⟨hcs, hlost⟩ | hcase
    · refine silence hcs ?_
      rcases hn with ⟨h1, h2, h3⟩ | h
      · have hlt : j < losses := by
          rcases Nat.lt_or_ge j losses with h | h
          · exact h
          · have : j = losses := by omega
            rw [this] at h1
            exact absurd h1 hlost
        refine .inl ⟨?_, by omega, by omega⟩
        obtain ⟨pre, rfl⟩ := h1
        exact ⟨pre, by rw [List.replicate_succ', List.append_assoc]⟩
      · exact .inr h
    have hcase : match devs.filter (hits m) with | [] => cs.flatten = [] | [_] => cs.flatten = [0xE5] | _ => (∃ rest, cs.flatten = 0xE5 :: rest) ∨ Garbled cs.flatten := hcase
    -- after SINGLE
    have single : devs.filter (hits m) ≠ [] → cs ≠ [] → selectSecondary ((busLink k env).ops purge) ⟨[], sent⟩ m = .ok (PROBE_SINGLE, ⟨[], sent ++ [(selT m).wire]⟩) →
        ∃ r a sent' l, (selectSecondary ((busLink k env).ops purge).logged (⟨[], sent⟩, log) m >>= fun q =>
          if q.1 = PROBE_SINGLE then probeSelected ((busLink k env).ops purge).logged q.2
          else if q.1 = PROBE_ERROR ∨ q.1 = PROBE_COLLISION then .ok (q.1, none, q.2)
          else probeLoop ((busLink k env).ops purge).logged q.2 m q.1 n) = .ok (r, a, (⟨[], sent'⟩, log ++ l)) ∧ Answer devs m r (foundOf l) := by
      intro hne hcs hsel
      obtain ⟨l, h1, h2⟩ := select_lifted _ _ log _ _ _ hsel
      rw [h1, ok_bind]
      simp only [if_pos]
      obtain ⟨r, a, sent', l', e1, e2⟩ := probeSelected_wire k env ho hw purge hp devs losses hf hread m ha sent (log ++ l) hne
        (by rw [hresp]; intro h; exact hcs (List.map_eq_nil_iff.mp h))
      refine ⟨r, a, sent', l ++ l', ?_, ?_⟩
      · rw [e1, List.append_assoc]
      · rw [foundOf_append, h2]; exact e2
    -- after COLLISION
    have collision : selectSecondary ((busLink k env).ops purge) ⟨[], sent⟩ m = .ok (PROBE_COLLISION, ⟨[], sent ++ [(selT m).wire]⟩) →
        ∃ r a sent' l, (selectSecondary ((busLink k env).ops purge).logged (⟨[], sent⟩, log) m >>= fun q =>
          if q.1 = PROBE_SINGLE then probeSelected ((busLink k env).ops purge).logged q.2
          else if q.1 = PROBE_ERROR ∨ q.1 = PROBE_COLLISION then .ok (q.1, none, q.2)
          else probeLoop ((busLink k env).ops purge).logged q.2 m q.1 n) = .ok (r, a, (⟨[], sent'⟩, log ++ l)) ∧ r = 2 ∧ foundOf l = [] := by
      intro hsel
      obtain ⟨l, h1, h2⟩ := select_lifted _ _ log _ _ _ hsel
      rw [h1, ok_bind]
      simp only
      rw [if_neg (by decide), if_pos (by decide)]
      exact ⟨_, _, _, l, rfl, rfl, h2⟩
    match hM : devs.filter (hits m) with
    | [] =>
      rw [hM] at hcase
      have hcs : cs = [] := by
        cases cs with
        | nil => rfl
        | cons c cs =>
          simp only [List.flatten_cons, List.append_eq_nil_iff] at hcase
          exact absurd hcase.1 (hc c (by simp))
      rw [hM] at silence
      exact silence hcs (.inr rfl)
    | [d] =>
      rw [hM] at hcase
      obtain ⟨r0, h1, h2, h3, _⟩ := select_ack k env ho hw purge hp sent m ha cs hc hresp [] hcase
      rw [h3 rfl] at h1
      obtain ⟨r, a, sent', l, e1, e2⟩ := single (by rw [hM]; simp) (by rintro rfl; simp at hcase) h1
      unfold Answer at e2
      rw [hM] at e2
      exact ⟨r, a, sent', l, e1, e2⟩
    | d :: e :: rest =>
      rw [hM] at hcase
      rcases hcase with ⟨rest', hr⟩ | hg
      · obtain ⟨r0, h1, h2, _, _⟩ := select_ack k env ho hw purge hp sent m ha cs hc hresp rest' hr
        rcases h2 with h2 | h2
        · rw [h2] at h1
          obtain ⟨r, a, sent', l, e1, e2⟩ := single (by rw [hM]; simp) (by rintro rfl; simp at hr) h1
          unfold Answer at e2
          rw [hM] at e2
          exact ⟨r, a, sent', l, e1, e2⟩
        · rw [h2] at h1
          exact collision h1
      · exact collision (select_garbage k env ho hw purge hp sent m ha cs hc hresp hg)

theorem probes_lossy (st : Settings) (hst : (losses : Int) ≤ st.maxSearchRetry) :
    Probes ((busLink k env).ops purge).logged st (fun s => s.1.script = []) (fun s => foundOf s.2) devs := by
  constructor
  · rintro ⟨⟨script, sent⟩, log⟩ m h
    refine ⟨h, ?_⟩
    show foundOf (log ++ [.progress m]) = foundOf log
    rw [foundOf_append]; simp [foundOf]
  · rintro ⟨⟨script, sent⟩, log⟩ m h hm
    simp only at h
    subst h
    unfold probeSecondary
    rw [if_neg (by have := hm.1; omega)]
    obtain ⟨r, a, sent', l, e1, e2⟩ := probeLoop_wire k env ho hw purge hp devs losses hf hread m hm (st.maxSearchRetry + 1).toNat sent log 0 0
      (fun _ => rfl) (.inl ⟨List.nil_suffix, by omega, by omega⟩)
    exact ⟨r, a, _, foundOf l, e1, rfl, foundOf_append _ _, e2⟩

end

theorem probes_wire (k : Kind) (env : Env) (ho : IsOpen k env) (hw : Writable env) (purge : Int) (hp : purge ≠ PURGE_S2M) (devs : List Device)
    (hf : Faithful devs env) (hread : ∀ d ∈ devs, d.Readable) (st : Settings) (hst : 0 ≤ st.maxSearchRetry) :
    Probes ((busLink k env).ops purge).logged st (fun s => s.1.script = []) (fun s => foundOf s.2) devs :=
  probes_lossy k env ho hw purge hp devs 0 hf.lossy hread st hst

end Mbus
