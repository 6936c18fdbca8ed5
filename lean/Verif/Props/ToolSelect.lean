import Verif.Props.ToolScan
import Verif.Props.ToolCommands
/-
Property theorem C95: the tools that select a meter.
-/
namespace Mbus
open Spec

/-! ### C95 -/

/-- C95, provided that the uninitialised frame object does not happen to look like an acknowledge and that its uninitialised link is
not followed: whatever the handle does, exit status, output and what is sent are as in the table `Searched`: nothing is sent for a text
that is not an address; data is requested only after the selection was acknowledged; and the address printed is the one in the
telegram received. -/
theorem C95_select_partial {σ : Type} (o : Ops σ) (hh : Honest o) (junk : Frame) (hj : junk.type ≠ 1) (s : σ) (addr : List Byte) (e : Exit (σ × List Act))
    (h : selectTool junk false o.logged (s, []) addr = .ok e) : Searched addr e.code e.out e.state.2 := by
  unfold selectTool at h
  rcases Classical.em (AddressMask addr) with hm | hm
  case inr =>
    rw [if_pos (by rw [← Bool.not_eq_true, isSecondary_iff]; exact hm)] at h
    cases h
    exact .malformed hm
  rw [if_neg (by rw [(isSecondary_iff addr).mpr hm]; decide), bind_eq_ok] at h
  obtain ⟨⟨r, s1, log1⟩, h1, h⟩ := h
  rcases sendSelect_log o s [] addr r _ h1 with ⟨hn, _⟩ | ⟨_, f, c, hf, hl, hr⟩
  · exact absurd hm hn
  simp only [List.nil_append] at hl h
  subst hl
  rcases hr with ⟨rfl, rfl⟩ | ⟨hc, rfl⟩
  · rw [if_pos rfl] at h
    cases h
    exact .sendFailed f hm hf
  rw [if_neg (by decide), logged_recv_eq] at h
  cases hq : o.recv s1 junk with
  | error e => rw [hq] at h; cases h
  | ok q =>
    obtain ⟨rc, g, s2⟩ := q
    rw [hq] at h
    simp only [ok_bind, List.cons_append, List.nil_append] at h
    by_cases ht : rc = RECV_TIMEOUT
    · rw [if_pos ht] at h
      cases h
      exact .notSelected f c rc g hm hf hc (.inl ht)
    rw [if_neg ht] at h
    by_cases hi : rc = RECV_INVALID
    · rw [if_pos hi] at h
      cases h
      exact .notSelected f c rc g hm hf hc (.inr hi)
    rw [if_neg hi] at h
    by_cases hg : g.type = TYPE_ACK
    case neg =>
      rw [if_neg hg] at h
      simp only [printReply] at h
      cases h
      exact .other f c rc g hm hf hc ht hi (fun _ => hg)
    rw [if_pos hg, bind_eq_ok] at h
    have hok : rc = RECV_OK := Classical.byContradiction fun hne => hh s1 junk rc g s2 hj hq hne hg
    subst hok
    obtain ⟨⟨r, s3, log3⟩, h2, h⟩ := h
    rcases request_log o s2 _ 0xFD r _ h2 with ⟨hn, _⟩ | ⟨_, q, c', hq', hl, hr⟩
    · exact absurd (by decide) hn
    simp only [List.cons_append, List.nil_append] at hl h
    subst hl
    rcases hr with ⟨rfl, rfl⟩ | ⟨hc', rfl⟩
    · rw [if_pos rfl] at h
      cases h
      exact .requestFailed f q c g hm hf hc hg hq'
    rw [if_neg (by decide), logged_recv_eq] at h
    cases hq2 : o.recv s3 g with
    | error e => rw [hq2] at h; cases h
    | ok q2 =>
      obtain ⟨rc, g', s4⟩ := q2
      rw [hq2] at h
      simp only [ok_bind, List.cons_append, List.nil_append] at h
      by_cases hok : rc ≠ RECV_OK
      · rw [if_pos hok] at h
        cases h
        exact .noData f q c c' rc g g' hm hf hc hg hq' hc' hok
      rw [if_neg hok] at h
      have hok := Classical.not_not.mp hok
      subst hok
      by_cases hg' : g'.type ≠ TYPE_ACK
      · rw [if_pos hg', bind_eq_ok] at h
        obtain ⟨a, ha, h⟩ := h
        cases a with
        | none => cases h
        | some a =>
          cases h
          exact .found f q c c' g g' a hm hf hc hg hq' hc' hg' ha
      · rw [if_neg hg'] at h
        cases h
        exact .empty f q c c' g g' hm hf hc hg hq' hc' (Classical.not_not.mp hg')

/-- the start of the run on a bus where the selection is answered by `cs` -/
theorem selectTool_sent (k : Kind) (env : Env) (ho : IsOpen k env) (hw : Writable env) (purge : Int) (addr : List Byte) (hm : AddressMask addr)
    (hid : ∀ c ∈ addr.take 8, IdDigit c) (sent : List (List Byte)) :
    sendSelect ((busLink k env).ops purge) ⟨[], sent⟩ addr =
      .ok (0, ⟨env.respond (sent ++ [selectionWire (addressBytes addr)]), sent ++ [selectionWire (addressBytes addr)]⟩) := by
  have e : selBytes addr = addressBytes addr := selBytes_eq addr hm.1 hm.2 hid
  have h := bus_sendSelect k env ho hw purge sent addr hm
  unfold selT at h
  rw [e] at h
  exact h

/-- C95 on the wire: on a bus of readable meters (C48; the identification numbers need not be different) the tool finds exactly the
one meter the address (possibly with wildcards) selects and prints its address; if there is none, it fails and prints nothing. -/
theorem C95_wire (k : Kind) (env : Env) (ho : IsOpen k env) (hw : Writable env) (purge : Int) (hp : purge ≠ PURGE_S2M) (devs : List Device) (hf : Faithful devs env)
    (hd : ∀ d ∈ devs, d.Readable) (addr : List Byte) (hm : AddressMask addr) (hid : ∀ c ∈ addr.take 8, IdDigit c)
    (junk : Frame) (wild : Bool) (sent : List (List Byte)) :
    (devs.filter (fun d => selects (addressBytes addr) d.address) = [] →
      selectTool junk wild ((busLink k env).ops purge) ⟨[], sent⟩ addr = .ok ⟨1, [], ⟨[], sent ++ [selectionWire (addressBytes addr)]⟩⟩) ∧
    ∀ d, devs.filter (fun d => selects (addressBytes addr) d.address) = [d] →
      selectTool junk wild ((busLink k env).ops purge) ⟨[], sent⟩ addr =
        .ok ⟨0, [.reply (addressText d.address)], ⟨[], sent ++ [selectionWire (addressBytes addr)] ++ [requestWire]⟩⟩ := by
  have h8 : (addressBytes addr).length = 8 := by
    rw [← selBytes_eq addr hm.1 hm.2 hid]; exact selBytes_length addr hm
  obtain ⟨cs, hc, hr, hx⟩ := hf.selection sent (addressBytes addr) h8
  obtain ⟨cs2, hc2, hr2, hx2⟩ := hf.request sent (addressBytes addr) h8
  constructor
  · intro h
    rw [h] at hx
    have := chunks_nil cs hc hx
    subst this
    unfold selectTool
    rw [if_neg (by rw [(isSecondary_iff addr).mpr hm]; decide), selectTool_sent k env ho hw purge addr hm hid sent, ok_bind]
    simp only
    rw [if_neg (by decide), hr]
    show (recvFrame (busLink k env) purge ⟨[], _⟩ junk >>= _) = _
    rw [recv_silent k env ho, ok_bind]
    rfl
  · intro d h
    rw [h] at hx hx2
    have hdm : d ∈ devs := (List.mem_filter.mp (by rw [h]; simp : d ∈ devs.filter _)).1
    obtain ⟨g, cs', h1, h2, h3, h4⟩ := recv_ack1 k env ho purge hp (sent ++ [selectionWire (addressBytes addr)]) cs hc [] hx junk
    have := chunks_nil cs' h3 h4
    subst this
    unfold selectTool
    rw [if_neg (by rw [(isSecondary_iff addr).mpr hm]; decide), selectTool_sent k env ho hw purge addr hm hid sent, ok_bind]
    simp only
    rw [if_neg (by decide), hr]
    show (recvFrame (busLink k env) purge ⟨evs cs, _⟩ junk >>= _) = _
    rw [h1, ok_bind]
    simp only
    rw [if_neg (by decide), if_neg (by decide), if_pos (show g.type = TYPE_ACK from h2)]
    have hreq := bus_sendRequest k env ho hw purge (sent ++ [selectionWire (addressBytes addr)]) 0xFD (by decide)
    show (sendRequest ((busLink k env).ops purge) ⟨[], sent ++ [selectionWire (addressBytes addr)]⟩ 0xFD >>= _) = _
    rw [hreq, ok_bind]
    simp only
    rw [if_neg (by decide)]
    obtain ⟨hl, hsl⟩ := readable_legal d (hd d hdm)
    obtain ⟨g2, e1, e2⟩ := recv_telegram k env ho purge hp (sent ++ [selectionWire (addressBytes addr)] ++ [requestWire]) cs2 hc2 d.telegram hl hsl hx2 g
    obtain ⟨e3, e4⟩ := readable_address d (hd d hdm) g2 e2
    show (recvFrame (busLink k env) purge ⟨env.respond (sent ++ [selectionWire (addressBytes addr)] ++ [requestWire]), sent ++ [selectionWire (addressBytes addr)] ++ [requestWire]⟩ g >>= _) = _
    rw [hr2, e1, ok_bind]
    simp only
    rw [if_neg (by decide), if_pos (by rw [e3]; decide), e4]
    rfl

/-- two meters on a bus, one of them selected by its address, both by a wildcard -/
example (k : Kind) (junk : Frame) (wild : Bool) :
    selectTool junk wild ((busLink k (idealBus twoMeters)).ops PURGE_M2S) ⟨[], []⟩ (cs! "12345679FFFFFFFF") =
      .ok ⟨0, [.reply (cs! "1234567924400107")], ⟨[], [selectionWire [0x79, 0x56, 0x34, 0x12, 0xFF, 0xFF, 0xFF, 0xFF], requestWire]⟩⟩ := by
  have h := twoMeters_scannable k
  exact (C95_wire k _ h.opened h.writable PURGE_M2S (by decide) twoMeters h.faithful h.readable (cs! "12345679FFFFFFFF") (by unfold AddressMask; decide +kernel)
    (by decide +kernel) junk wild []).2 (twoMeters.getD 1 ⟨0, 0, []⟩) (by decide +kernel)

theorem bus_sendRequest_script (k : Kind) (env : Env) (ho : IsOpen k env) (hw : Writable env) (purge : Int) (script : List Ev) (sent : List (List Byte)) :
    sendRequest ((busLink k env).ops purge) ⟨script, sent⟩ 0xFD = .ok (0, ⟨script ++ env.respond (sent ++ [requestWire]), sent ++ [requestWire]⟩) := by
  have hs := bus_send k env ho ⟨script, sent⟩ _ _ (show Spec.Telegram.Legal (.short 0x5B (UInt8.ofNat (0xFD : Int).toNat)) from (by decide : (0x5B : Byte) ∈ shortCodes))
    (packs_short 0x5B (UInt8.ofNat (0xFD : Int).toNat))
  unfold sendRequest
  rw [if_neg (by decide)]
  show ((busLink k env).send ⟨script, sent⟩ { frameNew TYPE_SHORT with control := 0x5B, address := UInt8.ofNat (0xFD : Int).toNat } >>= _) = _
  rw [hs, hw, if_pos rfl, ok_bind]
  rfl

/-- C95 is false: two meters that acknowledge one after the other are not noticed; the second acknowledge is taken for the answer to the
request, whatever the answer is: nothing is printed and the exit status is 0. -/
theorem C95_two_meters_violation (k : Kind) (env : Env) (ho : IsOpen k env) (hw : Writable env) (purge : Int) (hp : purge ≠ PURGE_S2M) (addr : List Byte)
    (hm : AddressMask addr) (hid : ∀ c ∈ addr.take 8, IdDigit c) (sent cs cs2 : List (List Byte)) (hc : Chunks cs) (hc2 : Chunks cs2)
    (hx : cs.flatten = [0xE5, 0xE5])
    (hr : env.respond (sent ++ [selectionWire (addressBytes addr)]) = evs cs)
    (hr2 : env.respond (sent ++ [selectionWire (addressBytes addr)] ++ [requestWire]) = evs cs2)
    (junk : Frame) (wild : Bool) :
    ∃ b, selectTool junk wild ((busLink k env).ops purge) ⟨[], sent⟩ addr = .ok ⟨0, [], b⟩ := by
  obtain ⟨g, cs', h1, h2, h3, h4⟩ := recv_ack1 k env ho purge hp (sent ++ [selectionWire (addressBytes addr)]) cs hc [0xE5] hx junk
  obtain ⟨g2, cs3, e1, e2, e3, e4⟩ := recv_ack1 k env ho purge hp (sent ++ [selectionWire (addressBytes addr)] ++ [requestWire]) (cs' ++ cs2)
    (fun c h => (List.mem_append.mp h).elim (h3 c) (hc2 c)) cs2.flatten (by rw [List.flatten_append, h4]; rfl) g
  refine ⟨⟨evs cs3, sent ++ [selectionWire (addressBytes addr)] ++ [requestWire]⟩, ?_⟩
  unfold selectTool
  rw [if_neg (by rw [(isSecondary_iff addr).mpr hm]; decide), selectTool_sent k env ho hw purge addr hm hid sent, ok_bind]
  simp only
  rw [if_neg (by decide), hr]
  show (recvFrame (busLink k env) purge ⟨evs cs, _⟩ junk >>= _) = _
  rw [h1, ok_bind]
  simp only
  rw [if_neg (by decide), if_neg (by decide), if_pos (show g.type = TYPE_ACK from h2), bus_sendRequest_script k env ho hw, ok_bind]
  simp only
  rw [if_neg (by decide), hr2]
  show (recvFrame (busLink k env) purge ⟨evs cs' ++ evs cs2, _⟩ g >>= _) = _
  rw [show evs cs' ++ evs cs2 = evs (cs' ++ cs2) from List.map_append.symm, e1, ok_bind]
  simp only
  rw [if_neg (by decide), if_neg (fun h => h e2)]

/-- C95 is false: a selected meter that answers with anything but variable data (CI 72) makes the tool print a NULL string. -/
theorem C95_null_violation (k : Kind) (env : Env) (ho : IsOpen k env) (hw : Writable env) (purge : Int) (hp : purge ≠ PURGE_S2M) (addr : List Byte)
    (hm : AddressMask addr) (hid : ∀ c ∈ addr.take 8, IdDigit c) (sent cs cs2 : List (List Byte)) (hc : Chunks cs) (hc2 : Chunks cs2)
    (hx : cs.flatten = [0xE5]) (c a ci : Byte) (p : List Byte) (hci : ci ≠ 0x72) (hl : Spec.Telegram.Legal (.data c a ci p)) (hs : c &&& 0x40 = 0)
    (hx2 : cs2.flatten = (Spec.Telegram.data c a ci p).wire)
    (hr : env.respond (sent ++ [selectionWire (addressBytes addr)]) = evs cs)
    (hr2 : env.respond (sent ++ [selectionWire (addressBytes addr)] ++ [requestWire]) = evs cs2)
    (junk : Frame) (wild : Bool) :
    selectTool junk wild ((busLink k env).ops purge) ⟨[], sent⟩ addr = .error .null := by
  obtain ⟨g, cs', h1, h2, h3, h4⟩ := recv_ack1 k env ho purge hp (sent ++ [selectionWire (addressBytes addr)]) cs hc [] hx junk
  have := chunks_nil cs' h3 h4
  subst this
  obtain ⟨g2, e1, e2⟩ := recv_telegram k env ho purge hp (sent ++ [selectionWire (addressBytes addr)] ++ [requestWire]) cs2 hc2 _ hl hs hx2 g
  unfold selectTool
  rw [if_neg (by rw [(isSecondary_iff addr).mpr hm]; decide), selectTool_sent k env ho hw purge addr hm hid sent, ok_bind]
  simp only
  rw [if_neg (by decide), hr]
  show (recvFrame (busLink k env) purge ⟨evs cs, _⟩ junk >>= _) = _
  rw [h1, ok_bind]
  simp only
  rw [if_neg (by decide), if_neg (by decide), if_pos (show g.type = TYPE_ACK from h2), bus_sendRequest_script k env ho hw, ok_bind]
  simp only
  rw [if_neg (by decide), hr2]
  show (recvFrame (busLink k env) purge ⟨evs cs2, _⟩ g >>= _) = _
  rw [e1, ok_bind]
  simp only
  obtain ⟨t1, _, _, t2, _⟩ := e2
  rw [if_neg (by decide), if_pos (by rw [t1]; split <;> decide), show getSecondaryAddress g2 = .ok none from (by unfold getSecondaryAddress; rw [if_pos (by rw [t2]; exact hci)])]
  rfl

/-- C95 is false: any answer to the selection that is not an acknowledge makes the tool follow an uninitialised pointer. -/
theorem C95_pointer_violation (k : Kind) (env : Env) (ho : IsOpen k env) (hw : Writable env) (purge : Int) (hp : purge ≠ PURGE_S2M) (addr : List Byte)
    (hm : AddressMask addr) (hid : ∀ c ∈ addr.take 8, IdDigit c) (sent cs : List (List Byte)) (hc : Chunks cs)
    (c a ci : Byte) (p : List Byte) (hl : Spec.Telegram.Legal (.data c a ci p)) (hs : c &&& 0x40 = 0) (hx : cs.flatten = (Spec.Telegram.data c a ci p).wire)
    (hr : env.respond (sent ++ [selectionWire (addressBytes addr)]) = evs cs) (junk : Frame) :
    selectTool junk true ((busLink k env).ops purge) ⟨[], sent⟩ addr = .error .useAfterFree := by
  obtain ⟨g, e1, e2⟩ := recv_telegram k env ho purge hp (sent ++ [selectionWire (addressBytes addr)]) cs hc _ hl hs hx junk
  unfold selectTool
  rw [if_neg (by rw [(isSecondary_iff addr).mpr hm]; decide), selectTool_sent k env ho hw purge addr hm hid sent, ok_bind]
  simp only
  rw [if_neg (by decide), hr]
  show (recvFrame (busLink k env) purge ⟨evs cs, _⟩ junk >>= _) = _
  rw [e1, ok_bind]
  simp only
  rw [if_neg (by decide), if_neg (by decide), if_neg (by rw [e2.1]; split <;> decide)]
  rfl

/-- an encrypted or fixed data answer (CI 73) -/
def fixedMeter : Env where
  respond sent := if sent.length = 1 then [.data [0xE5]] else [.data (Spec.Telegram.data 0x08 1 0x73 (List.replicate 16 0)).wire]
  junk _ := 0
  wret _ n := n
  tty := true

example (k : Kind) (junk : Frame) : selectTool junk false ((busLink k fixedMeter).ops PURGE_M2S) ⟨[], []⟩ (cs! "12345679FFFFFFFF") = .error .null :=
  C95_null_violation k fixedMeter (by cases k <;> simp [IsOpen, fixedMeter]) (fun _ _ => rfl) PURGE_M2S (by decide) _ (by unfold AddressMask; decide +kernel) (by decide +kernel)
    [] [[0xE5]] [(Spec.Telegram.data 0x08 1 0x73 (List.replicate 16 0)).wire] (by simp [Chunks]) (by simp [Chunks, Spec.Telegram.wire]) rfl
    0x08 1 0x73 (List.replicate 16 0) (by decide) ⟨by decide, by decide⟩ (by decide) (by simp) rfl rfl junk false

example (k : Kind) (junk : Frame) : ∃ b, selectTool junk false ((busLink k (echoing [0xE5, 0xE5])).ops PURGE_M2S) ⟨[], []⟩ (cs! "12345679FFFFFFFF") = .ok ⟨0, [], b⟩ :=
  C95_two_meters_violation k _ (by cases k <;> simp [IsOpen, echoing]) (fun _ _ => rfl) PURGE_M2S (by decide) _ (by unfold AddressMask; decide +kernel) (by decide +kernel)
    [] [[0xE5, 0xE5]] [[0xE5, 0xE5]] (by simp [Chunks]) (by simp [Chunks]) rfl rfl rfl junk false

example (k : Kind) (junk : Frame) :
    selectTool junk true ((busLink k (echoing (Spec.Telegram.data 0x08 1 0x72 []).wire)).ops PURGE_M2S) ⟨[], []⟩ (cs! "12345679FFFFFFFF") = .error .useAfterFree :=
  C95_pointer_violation k _ (by cases k <;> simp [IsOpen, echoing]) (fun _ _ => rfl) PURGE_M2S (by decide) _ (by unfold AddressMask; decide +kernel) (by decide +kernel)
    [] [(Spec.Telegram.data 0x08 1 0x72 []).wire] (by simp [Chunks, Spec.Telegram.wire]) 0x08 1 0x72 [] ⟨by decide, by decide⟩ (by decide) (by simp) rfl junk

/-- C95 applied: any bus -/
example (k : Kind) (env : Env) (b : Bus) (e : Exit (Bus × List Act))
    (h : selectTool Frame.zero false ((busLink k env).ops PURGE_M2S).logged (b, []) (cs! "12345679FFFFFFFF") = .ok e) :=
  C95_select_partial _ (bus_honest k env PURGE_M2S (by decide)) Frame.zero (by decide) b _ e h

end Mbus
