import Verif.Lemmas.SrStep
import Verif.Lemmas.RecFree
import Verif.Lemmas.Logged
import Verif.Spec.Command
/-
Property theorems C43-C46 (multi-telegram requests).  The requests run on any handle operations `o` that are `Sound` (both
transports are: `handle_sound`), observed by a log of all calls; `out.state.2` is that log.
-/
namespace Mbus
open Spec

theorem byte_primary' (n : Byte) : isPrimaryAddress (n.toNat : Int) = true := by
  rw [isPrimary_iff]; have := n.toNat_lt; omega

theorem sendrecv_post {σ : Type} (o : Ops σ) (ho : Sound o) (st : Settings) (hst : SettingsOk st) (s : σ) (a : Byte) (reply : Frame)
    (hr : reply.dataSize ≤ 252) (mf : Int) (out : SrOut (σ × List Act))
    (h : sendrecvRequest o.logged st (s, []) a.toNat reply mf = .ok out) : Post a st.maxDataRetry mf out := by
  unfold sendrecvRequest at h
  rw [if_neg (by rw [byte_primary']; decide)] at h
  have h0 := hst.1.1
  refine sr_inv o ho a st.maxDataRetry mf (s, []) _ _ _ _ _ _ _ out h ?_ hr
  refine ⟨⟨?_, ?_⟩, ?_, ⟨[], [], rfl, rfl, rfl⟩, ⟨rfl, by simp, rfl⟩, rfl, rfl, by intro g hg; simp [accepted] at hg, by simp [sends], by omega, by omega, .inl rfl⟩
  · intro pre f c post h
    exact absurd h (by simp)
  · intro pre seg post h _
    have h : [] = pre ++ seg ++ post := h
    simp only [List.nil_eq, List.append_eq_nil_iff] at h
    rw [h.1.2]; simp only [sends]; omega
  · intro pre seg h _
    have h : [] = pre ++ seg := h
    simp only [List.nil_eq, List.append_eq_nil_iff] at h
    rw [h.2]; simp [sends]

/-! ### C43 -/

/-- C43 (what the log means): observing the calls changes nothing; the observed request is the request. -/
theorem C43_log_passive {σ : Type} (o : Ops σ) (st : Settings) (s : σ) (a : Int) (reply : Frame) (mf : Int) :
    unlog (sendrecvRequest o.logged st (s, []) a reply mf) = sendrecvRequest o st s a reply mf := by
  unfold sendrecvRequest
  split
  · rfl
  · exact sr_logged o _ _ _ _ _ _ _ _ _ _ _

/-- C43: whatever the bus does, each transmission of a request is a REQ_UD2 short frame with FCV to the requested address whose
FCB is set iff the number of telegrams accepted so far is even (so: set in the first one, unchanged in retries, flipped after
each accepted telegram); and after an accepted telegram there is a further transmission only if that telegram announced more
records. -/
theorem C43_fcb_alternates {σ : Type} (o : Ops σ) (ho : Sound o) (st : Settings) (hst : SettingsOk st) (s : σ) (a : Byte)
    (reply : Frame) (hr : reply.dataSize ≤ 252) (mf : Int) (out : SrOut (σ × List Act))
    (h : sendrecvRequest o.logged st (s, []) a.toNat reply mf = .ok out)
    (pre : List Act) (f : Frame) (c : Int) (post : List Act) (hsplit : out.state.2 = pre ++ .sent f c :: post) :
    IsRequest a (accepted pre).length f ∧ ∀ g, (accepted pre).getLast? = some g → MoreFollows g :=
  (sendrecv_post o ho st hst s a reply hr mf out h).good.requests pre f c post hsplit

/-! ### C44 -/

/-- C44: no stretch of the session without an accepted telegram contains more than `max_data_retry + 1` transmissions, and in
total there are at most that many per telegram of the resulting chain. -/
theorem C44_retries_bounded {σ : Type} (o : Ops σ) (ho : Sound o) (st : Settings) (hst : SettingsOk st) (s : σ) (a : Byte)
    (reply : Frame) (hr : reply.dataSize ≤ 252) (mf : Int) (out : SrOut (σ × List Act))
    (h : sendrecvRequest o.logged st (s, []) a.toNat reply mf = .ok out) :
    (∀ pre seg post, out.state.2 = pre ++ seg ++ post → accepted seg = [] → (sends seg : Int) ≤ st.maxDataRetry + 1) ∧
    (sends out.state.2 : Int) ≤ out.chain.length * (st.maxDataRetry + 1) :=
  ⟨(sendrecv_post o ho st hst s a reply hr mf out h).good.bounded, (sendrecv_post o ho st hst s a reply hr mf out h).total⟩

/-- C44: the return code tells how the session ended (`Ending`): in particular 1 after exactly `max_data_retry + 1`
unanswered transmissions in a row, a failed link or an unreadable telegram, and never before. -/
theorem C44_ending {σ : Type} (o : Ops σ) (ho : Sound o) (st : Settings) (hst : SettingsOk st) (s : σ) (a : Byte)
    (reply : Frame) (hr : reply.dataSize ≤ 252) (mf : Int) (out : SrOut (σ × List Act))
    (h : sendrecvRequest o.logged st (s, []) a.toNat reply mf = .ok out) :
    Ending st.maxDataRetry mf out.code out.chain out.state.2 :=
  (sendrecv_post o ho st hst s a reply hr mf out h).ending

/-- C44: once the budget is used up the request fails with 1 (or -1 if the very last transmission failed). -/
theorem C44_exhausted_fails {σ : Type} (o : Ops σ) (ho : Sound o) (st : Settings) (hst : SettingsOk st) (s : σ) (a : Byte)
    (reply : Frame) (hr : reply.dataSize ≤ 252) (mf : Int) (out : SrOut (σ × List Act))
    (h : sendrecvRequest o.logged st (s, []) a.toNat reply mf = .ok out) (pre seg : List Act)
    (hsplit : out.state.2 = pre ++ seg) (ha : accepted seg = []) (hn : (sends seg : Int) = st.maxDataRetry + 1) :
    out.code = 1 ∨ (out.code = -1 ∧ ∃ pre f, out.state.2 = pre ++ [.sent f (-1)]) := by
  have he := C44_ending o ho st hst s a reply hr mf out h
  have h0 := hst.1.1
  generalize hc : out.code = code at he ⊢
  generalize hl : out.state.2 = log at he hsplit ⊢
  generalize out.chain = chain at he
  cases he with
  | done pre' f r x _ _ =>
    exfalso
    have hpos : 0 < sends seg := by omega
    rw [show pre' ++ [Act.received RECV_OK f, .purged r] = (pre' ++ [.received RECV_OK f]) ++ [.purged r] by simp] at hsplit
    rcases snoc_suffix hsplit with rfl | ⟨seg', rfl, h2⟩
    · simp [sends] at hpos
    · rcases snoc_suffix h2 with rfl | ⟨seg'', rfl, _⟩
      · simp [sends] at hpos
      · rw [accepted_append, accepted_append] at ha
        simp [accepted] at ha
  | sendFailed pre' f g => exact .inr ⟨rfl, pre', f, rfl⟩
  | exhausted => exact .inl rfl
  | linkFailed => exact .inl rfl
  | unreadable => exact .inl rfl

/-! ### C45 -/

/-- C45 (positive limits): at most `max_frames` telegrams are accepted; on success the chain handed to the caller consists of
exactly the accepted telegrams, and the readout stopped early only because the last telegram announced nothing more.
Missing: `max_frames = 0`, see the violation. -/
theorem C45_max_frames_partial {σ : Type} (o : Ops σ) (ho : Sound o) (st : Settings) (hst : SettingsOk st) (s : σ) (a : Byte)
    (reply : Frame) (hr : reply.dataSize ≤ 252) (mf : Int) (hmf : 0 < mf) (out : SrOut (σ × List Act))
    (h : sendrecvRequest o.logged st (s, []) a.toNat reply mf = .ok out) :
    ((accepted out.state.2).length : Int) ≤ mf ∧
    (out.code = 0 → out.chain = accepted out.state.2 ∧
      ∃ f, out.chain.getLast? = some f ∧ (MoreFollows f → ((accepted out.state.2).length : Int) = mf)) := by
  have hp := sendrecv_post o ho st hst s a reply hr mf out h
  have hle : ((accepted out.state.2).length : Int) ≤ mf := by
    rcases hp.few with h | h <;> omega
  refine ⟨hle, fun hc => ?_⟩
  have he := hp.ending
  rw [hc] at he
  generalize hl : out.state.2 = log at he hle ⊢
  generalize hch : out.chain = chain at he ⊢
  cases he with
  | done pre f r x h1 h2 =>
    refine ⟨rfl, f, ?_, fun hm => ?_⟩
    · rw [accepted_append, List.getLast?_append]; simp [accepted]
    · have := h2 hm; omega

/-- C45 is violated for `max_frames = 0` (documented as "no limit"): whatever the bus does, at most one telegram is accepted,
even if it announces more records. -/
theorem C45_no_limit_violation {σ : Type} (o : Ops σ) (ho : Sound o) (st : Settings) (hst : SettingsOk st) (s : σ) (a : Byte)
    (reply : Frame) (hr : reply.dataSize ≤ 252) (out : SrOut (σ × List Act))
    (h : sendrecvRequest o.logged st (s, []) a.toNat reply 0 = .ok out) :
    (accepted out.state.2).length ≤ 1 := by
  rcases (sendrecv_post o ho st hst s a reply hr 0 out h).few with h | h
  · exact h
  · omega

/-! ### C46 -/

/-- C46 (orderly meters): if the handle's operations are defined and the meter, once it has announced more records, sends only
variable data telegrams, then no record list is freed twice (the only undefined behaviour left is that of the record parser,
C27), and after a successful request every list has been freed.
Missing: other meters and failed requests, see the violations. -/
theorem C46_records_freed_partial {σ : Type} (o : Ops σ) (V : σ → Prop) (mf : Int) (ho : Orderly o V mf) (st : Settings) (s : σ)
    (a : Int) (reply : Frame) (hr : reply.dataSize ≤ 252) :
    (∀ e, sendrecvRequest o st s a reply mf = .error e → ParserFault e) ∧
    (∀ out, sendrecvRequest o st s a reply mf = .ok out → out.code = 0 → out.recs ≠ .live) := by
  unfold sendrecvRequest
  by_cases h : isPrimaryAddress a = false
  · rw [if_pos h]
    exact ⟨fun e h => (by cases h), fun out h hc => by cases h; exact absurd hc (by simp)⟩
  · rw [if_neg h]
    exact sr_safe o V _ mf ho s _ _ _ _ _ _ _ (by omega) rfl hr (.inl rfl)

/-- C46 (one telegram): on any handle and any bus, with `max_frames` at most 1. -/
theorem C46_single_telegram_partial (k : Kind) (env : Env) (purge : Int) (mf : Int) (hmf : mf ≤ 1) (st : Settings) (b : Bus)
    (a : Int) (reply : Frame) (hr : reply.dataSize ≤ 252) :
    (∀ e, sendrecvRequest ((busLink k env).ops purge) st b a reply mf = .error e → ParserFault e) ∧
    (∀ out, sendrecvRequest ((busLink k env).ops purge) st b a reply mf = .ok out → out.code = 0 → out.recs ≠ .live) :=
  C46_records_freed_partial _ (fun _ => False) mf (handle_orderly k env purge mf hmf) st b a reply hr

/-- C46 is violated: on either handle, every meter that announces more records and then reports an application error makes
`mbus_sendrecv_request` free the first telegram's records twice. -/
theorem C46_double_free_violation (k : Kind) (purge : Int) (hpurge : purge ≠ PURGE_S2M) (st : Settings) (hst : SettingsOk st)
    (a : Byte) (reply : Frame) (mf : Int) (hmf : 2 ≤ mf) (t : Telegram) (ht : ReadableT true t) (b e : Byte) :
    sendrecvRequest ((busLink k (replyEnv fun n => if n = 1 then t else .data 0x08 b 0x70 [e])).ops purge) st ⟨[], []⟩ a.toNat reply mf =
      .error .doubleFree := by
  unfold sendrecvRequest
  rw [if_neg (by rw [byte_primary']; decide)]
  have h0 := hst.1.1
  have hL : t.Legal ∧ FromSlave t := by
    obtain ⟨c, a, p, rs, rfl, hcc, h12, h252, ht, hm⟩ := ht
    simp only [List.mem_cons, List.not_mem_nil, or_false] at hcc
    rcases hcc with rfl | rfl | rfl | rfl <;> exact ⟨⟨by decide, h252⟩, rfl⟩
  have hreq : ReqFrame a 0 { frameNew TYPE_SHORT with
      control := MASK_REQ_UD2 ||| MASK_DIR_M2S ||| MASK_FCV ||| MASK_FCB
      address := UInt8.ofNat (a.toNat : Int).toNat } := ⟨rfl, rfl, rfl, by simp, rfl⟩
  obtain ⟨c1, hc1, e1⟩ := sr_step k (fun n => if n = 1 then t else .data 0x08 b 0x70 [e]) purge hpurge [] hL.1 hL.2 a 0 _ hreq
    st.maxDataRetry mf [] reply FrameData.new .null 0 0 h0
  have hc1 : Carries c1 t := hc1
  rw [e1]
  obtain ⟨x, p1, p2, p3, p4, _⟩ := readable_parse ht c1 hc1 FrameData.new
  rw [p1]
  simp only
  rw [if_neg (by decide), if_pos ⟨p2, p3.mpr rfl, by omega, by omega⟩, parse_pointer _ c1 _ x p4 p1]
  have hne : x.var.records ≠ [] := by
    obtain ⟨c, a', p, rs, rfl, _, h12, h252, ht, hm⟩ := ht
    obtain ⟨q1, q2, q3, q4, q5, q6⟩ := hc1
    have hp : payload c1 = p := q6
    have hd : c1.control &&& 0x40 = 0 := by rw [q2]; exact hL.2
    rw [(frameDataParse_cases c1 FrameData.new).2.2 hd p4, if_neg (by omega)] at p1
    obtain ⟨v', h1, _, h3, _⟩ := variableParse_complete c1 FrameData.new.var (by omega) (by omega) rs (by rw [hp]; exact ht)
    rw [h1] at p1
    simp only [ok_bind, Except.ok.injEq, Prod.mk.injEq] at p1
    rw [← p1.2]
    show v'.records ≠ []
    rw [h3]
    obtain ⟨d, hl⟩ := hm.mpr rfl
    cases rs with
    | nil => simp at hl
    | cons => simp
  rw [if_neg hne]
  simp only [RecPtr.free]
  obtain ⟨c2, hc2, e2⟩ := sr_step k (fun n => if n = 1 then t else .data 0x08 b 0x70 [e]) purge hpurge
    [(Telegram.short (ctl 0) a).wire] ⟨show (0x08 : Byte) ∈ dataCodes by decide, show [e].length ≤ 252 by simp⟩ rfl a 1 _
    (reqFrame_flip (reqFrame_fixed hreq)) st.maxDataRetry mf [c1] (frameNew TYPE_ANY) x .freed 0 (0 + 1) h0
  have hc2 : Carries c2 (.data 0x08 b 0x70 [e]) := hc2
  obtain ⟨q1, q2, q3, q4, q5, q6⟩ := hc2
  rw [List.nil_append, List.nil_append, e2, frameDataParse_error c2 x (by rw [q2]; rfl) q4]
  simp only
  have hpp : ∀ y, (RecPtr.freed).parse c2 y = .freed := by
    intro y
    unfold RecPtr.parse
    rw [if_neg (by rintro ⟨_, h, _⟩; rw [q4] at h; exact absurd h (by decide))]
  rw [if_neg (by decide), if_neg (by rintro ⟨h, _⟩; exact absurd h (by show ¬ DATA_ERROR = DATA_VARIABLE; decide)), hpp]
  rfl

/-- C46 is violated: a telegram with one good and one truncated record makes the request fail without freeing the good one. -/
theorem C46_leak_violation (k : Kind) (purge : Int) (hpurge : purge ≠ PURGE_S2M) (st : Settings) (hst : SettingsOk st)
    (a b : Byte) (reply : Frame) (mf : Int) :
    ∃ out, sendrecvRequest ((busLink k (replyEnv fun _ => .data 0x08 b 0x72 (hdr ++ [0x01, 0x13, 5, 0x04, 0x13, 5]))).ops purge)
      st ⟨[], []⟩ a.toNat reply mf = .ok out ∧ out.code = 1 ∧ out.recs = .live := by
  unfold sendrecvRequest
  rw [if_neg (by rw [byte_primary']; decide)]
  have hreq : ReqFrame a 0 { frameNew TYPE_SHORT with
      control := MASK_REQ_UD2 ||| MASK_DIR_M2S ||| MASK_FCV ||| MASK_FCB
      address := UInt8.ofNat (a.toNat : Int).toNat } := ⟨rfl, rfl, rfl, by simp, rfl⟩
  obtain ⟨c1, hc1, e1⟩ := sr_step k (fun _ => .data 0x08 b 0x72 (hdr ++ [0x01, 0x13, 5, 0x04, 0x13, 5])) purge hpurge []
    ⟨show (0x08 : Byte) ∈ dataCodes by decide, by simp [hdr]⟩ rfl a 0 _ hreq
    st.maxDataRetry mf [] reply FrameData.new .null 0 0 hst.1.1
  have hc1 : Carries c1 (.data 0x08 b 0x72 (hdr ++ [0x01, 0x13, 5, 0x04, 0x13, 5])) := hc1
  obtain ⟨q1, q2, q3, q4, q5, q6⟩ := hc1
  have q5 : c1.dataSize = 18 := q5
  have hv := (C28_payload_only_partial c1 (rsp 0x72 (hdr ++ [0x01, 0x13, 5, 0x04, 0x13, 5])) VarData.zero (by rw [q5]; rfl)
    (by have h : payload c1 = _ := q6; rw [h]; decide +kernel)).1 (by omega)
  have hv2 : ∃ v', variableParse (rsp 0x72 (hdr ++ [0x01, 0x13, 5, 0x04, 0x13, 5])) VarData.zero = .ok (-1, v') ∧ v'.records ≠ [] :=
    ⟨_, rfl, by decide +kernel⟩
  obtain ⟨v', g1, g2⟩ := hv2
  rw [g1] at hv
  rw [e1, (frameDataParse_cases c1 FrameData.new).2.2 (by rw [q2]; rfl) q4, if_neg (by omega)]
  have hv' : variableParse c1 FrameData.new.var = .ok (-1, v') := hv
  rw [hv', ok_bind]
  refine ⟨_, rfl, rfl, ?_⟩
  show RecPtr.null.parse c1 _ = _
  unfold RecPtr.parse
  rw [if_pos ⟨by rw [q2]; rfl, q4, by omega⟩]
  exact if_neg g2

/-! ### C73 -/

/-- C73: on a lossy bus — requests and replies may vanish, a reply may be replaced by a byte of noise — where among any
`max_data_retry + 1` consecutive transmissions at least one exchange succeeds, `mbus_sendrecv_request` returns the meter's
complete readout: every telegram exactly once and in order, although the meter repeats and advances on its own according to
the frame count bits it hears; and it frees all records. -/
theorem C73_lossy_readout (k : Kind) (a : Byte) (ts : List Telegram) (hts : Readout ts) (fate : Nat → Fate)
    (hnoise : ∀ n b, fate n = .noise b → b ≠ 0xE5 ∧ b ≠ 0x10 ∧ b ≠ 0x68) (purge : Int) (hpurge : purge ≠ PURGE_S2M)
    (st : Settings) (max : Nat) (hmax : st.maxDataRetry = max) (hfair : ∀ n, ∃ j, j ≤ max ∧ fate (n + j) = .delivered)
    (mf : Int) (hmf : (ts.length : Int) ≤ mf) (reply : Frame) :
    ∃ out, sendrecvRequest ((busLink k (meterEnv a ts fate)).ops purge) st ⟨[], []⟩ a.toNat reply mf = .ok out ∧
      out.code = 0 ∧ Pointwise Carries out.chain ts ∧ out.recs ≠ .live := by
  unfold sendrecvRequest
  rw [if_neg (by rw [byte_primary']; decide), hmax]
  have hreq : ReqFrame a 0 { frameNew TYPE_SHORT with
      control := MASK_REQ_UD2 ||| MASK_DIR_M2S ||| MASK_FCV ||| MASK_FCB
      address := UInt8.ofNat (a.toNat : Int).toNat } := ⟨rfl, rfl, rfl, by simp, rfl⟩
  obtain ⟨j, hj, hd⟩ := hfair 0
  exact readout_loop k a ts fate hnoise purge hpurge max hfair mf hmf ts [] rfl hts j [] _ [] reply FrameData.new .null 0 hd
    (by omega) (.inl ⟨rfl, rfl⟩) hreq .nil

/-- a readout of two telegrams; every third exchange succeeds, the others are lost in different ways -/
def exReadout : List Telegram := [.data 0x08 5 0x72 (hdr ++ [0x01, 0x13, 7, 0x1F]), .data 0x08 5 0x72 (hdr ++ [0x01, 0x13, 8])]
def exFate (n : Nat) : Fate := if n % 3 = 2 then .delivered else if n % 3 = 1 then .replyLost else .noise 0xFF

theorem exReadout_ok : Readout exReadout := by
  refine ⟨⟨0x08, 5, _, [.value 0x01 [] 0x13 [] [] [7], .special 0x1F []], rfl, by decide, by decide, by decide, ?_, ?_⟩,
    ⟨0x08, 5, _, [.value 0x01 [] 0x13 [] [] [8]], rfl, by decide, by decide, by decide, ?_, ?_⟩⟩
  · exact .cons (dif := 1) (difes := []) (vif := 0x13) (text := []) (vifes := []) (data := [7])
      (by simp only [Rec.Legal, DataFits]; rw [if_neg (by decide)]; decide) (.last _ _ (by simp only [Rec.Legal]; decide))
  · exact ⟨fun _ => rfl, fun _ => ⟨[], rfl⟩⟩
  · exact .cons (dif := 1) (difes := []) (vif := 0x13) (text := []) (vifes := []) (data := [8])
      (by simp only [Rec.Legal, DataFits]; rw [if_neg (by decide)]; decide) .nil
  · exact ⟨fun ⟨_, h⟩ => by simp at h, fun h => by cases h⟩

theorem exFate_fair (n : Nat) : ∃ j, j ≤ 3 ∧ exFate (n + j) = .delivered := by
  refine ⟨(5 - n % 3) % 3, by omega, ?_⟩
  unfold exFate
  rw [if_pos (by omega)]

theorem exFate_noise (n : Nat) (b : Byte) (h : exFate n = .noise b) : b ≠ 0xE5 ∧ b ≠ 0x10 ∧ b ≠ 0x68 := by
  unfold exFate at h
  split at h
  · cases h
  · split at h
    · cases h
    · cases h; decide

/-- the hypotheses of C73 hold for it (and, by `handle_sound`, those of C43-C45 for a logged run of the same session) -/
example (k : Kind) : ∃ out, sendrecvRequest ((busLink k (meterEnv 5 exReadout exFate)).ops PURGE_M2S) { maxDataRetry := 3, maxSearchRetry := 1, purgeFirst := PURGE_M2S }
      ⟨[], []⟩ 5 (frameNew TYPE_ANY) 16 = .ok out ∧ out.code = 0 ∧ Pointwise Carries out.chain exReadout ∧ out.recs ≠ .live :=
  C73_lossy_readout k 5 exReadout exReadout_ok exFate exFate_noise PURGE_M2S (by decide) _ 3 rfl exFate_fair 16 (by decide) _

/-- the hypotheses of C43-C45 hold for the observed run of the same session -/
example (k : Kind) : ∃ out, sendrecvRequest ((busLink k (meterEnv 5 exReadout exFate)).ops PURGE_M2S).logged
    { maxDataRetry := 3, maxSearchRetry := 1, purgeFirst := PURGE_M2S } (⟨[], []⟩, []) (5 : Byte).toNat (frameNew TYPE_ANY) 16 = .ok out ∧ out.code = 0 := by
  obtain ⟨out, h1, h2, _⟩ := C73_lossy_readout k 5 exReadout exReadout_ok exFate exFate_noise PURGE_M2S (by decide)
    { maxDataRetry := 3, maxSearchRetry := 1, purgeFirst := PURGE_M2S } 3 rfl exFate_fair 16 (by decide) (frameNew TYPE_ANY)
  rw [← C43_log_passive] at h1
  generalize hg : sendrecvRequest _ _ _ _ _ _ = q at h1
  cases q with
  | error e => cases h1
  | ok q =>
    refine ⟨q, rfl, ?_⟩
    simp only [unlog, Except.ok.injEq] at h1
    rw [← h1] at h2
    exact h2

/-- the bus of C46: a meter that announces more and then reports an error -/
example : ReadableT true (.data 0x08 5 0x72 (hdr ++ [0x01, 0x13, 7, 0x1F])) := exReadout_ok.1

/-- C43-C45 applied to that run -/
example (k : Kind) : ∃ out, sendrecvRequest ((busLink k (meterEnv 5 exReadout exFate)).ops PURGE_M2S).logged
      { maxDataRetry := 3, maxSearchRetry := 1, purgeFirst := PURGE_M2S } (⟨[], []⟩, []) (5 : Byte).toNat (frameNew TYPE_ANY) 16 = .ok out ∧
    (∀ pre f c post, out.state.2 = pre ++ .sent f c :: post → IsRequest 5 (accepted pre).length f) ∧
    (sends out.state.2 : Int) ≤ out.chain.length * 4 ∧ Ending 3 16 0 out.chain out.state.2 ∧
    ((accepted out.state.2).length : Int) ≤ 16 ∧
    (∀ pre seg, out.state.2 = pre ++ seg → accepted seg = [] → (sends seg : Int) ≠ 4) := by
  obtain ⟨out, h1, h2, _⟩ := C73_lossy_readout k 5 exReadout exReadout_ok exFate exFate_noise PURGE_M2S (by decide)
    { maxDataRetry := 3, maxSearchRetry := 1, purgeFirst := PURGE_M2S } 3 rfl exFate_fair 16 (by decide) (frameNew TYPE_ANY)
  rw [← C43_log_passive] at h1
  generalize hg : sendrecvRequest _ _ _ _ _ _ = q at h1
  cases q with
  | error e => cases h1
  | ok q =>
    have hc : q.code = 0 := by
      simp only [unlog, Except.ok.injEq] at h1
      rw [← h1] at h2
      exact h2
    have ho := handle_sound k (meterEnv 5 exReadout exFate) PURGE_M2S
    have hst : SettingsOk { maxDataRetry := 3, maxSearchRetry := 1, purgeFirst := PURGE_M2S } := by unfold SettingsOk; decide
    have e := C44_ending _ ho _ hst _ 5 _ (by decide) 16 q hg
    rw [hc] at e
    refine ⟨q, rfl, ?_, (C44_retries_bounded _ ho _ hst _ 5 _ (by decide) 16 q hg).2, e, (C45_max_frames_partial _ ho _ hst _ 5 _ (by decide) 16 (by decide) q hg).1, ?_⟩
    · intro pre f c post hs
      exact (C43_fcb_alternates _ ho _ hst _ 5 _ (by decide) 16 q hg pre f c post hs).1
    · intro pre seg hs ha hn
      rcases C44_exhausted_fails _ ho _ hst _ 5 _ (by decide) 16 q hg pre seg hs ha hn with h | h
      · omega
      · omega

example (k : Kind) (b : Bus) := C46_single_telegram_partial k (meterEnv 5 exReadout exFate) PURGE_M2S 1 (by decide)
  { maxDataRetry := 3, maxSearchRetry := 1, purgeFirst := PURGE_M2S } b 5 (frameNew TYPE_ANY) (by decide)
example (k : Kind) (b : Bus) := C46_records_freed_partial _ (fun _ => False) 1 (handle_orderly k (meterEnv 5 exReadout exFate) PURGE_M2S 1 (by decide))
  { maxDataRetry := 3, maxSearchRetry := 1, purgeFirst := PURGE_M2S } b 5 (frameNew TYPE_ANY) (by decide)

end Mbus
