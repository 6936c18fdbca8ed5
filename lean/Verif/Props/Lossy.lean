import Verif.Props.ToolScanExact
/-
Property theorems C125: a secondary scan on a bus that loses telegrams.
-/
namespace Mbus
open Spec

/-- C125: on a bus that never loses more selections in a row than the library repeats them (`losses` at most the search retries), a
scan from position `pos` with any mask of hexadecimal digits (those of the identification number decimal or wildcards) reports
exactly the meters it reports on a bus without losses: those that are the only one selected by some mask tried (C74_exact), each
once, with its address and its response. -/
theorem C125_scan (k : Kind) (env : Env) (ho : IsOpen k env) (hw : Mbus.Writable env) (purge : Int) (hk : purge ≠ PURGE_S2M) (st : Settings)
    (losses : Nat) (hst : (losses : Int) ≤ st.maxSearchRetry) (devs : List Device) (hf : Lossy losses devs env) (hread : ∀ d ∈ devs, d.Readable)
    (m : List Byte) (hm : AddressMask m) (hid : ∀ c ∈ m.take 8, IdDigit c) (pos : Nat) (hpos : pos < 16) (sent : List (List Byte)) :
    ∃ sent' log es, scanRange ((busLink k env).ops purge).logged st (⟨[], sent⟩, []) pos m = .ok (0, ⟨[], sent'⟩, log) ∧
      Pointwise Reports (foundOf log) es ∧ es.Nodup ∧ ∀ d, d ∈ es ↔ Isolated devs pos m d := by
  have hlen : ∀ d ∈ devs, d.address.length = 8 := by
    intro d hd
    have := (hread d hd).2.1
    unfold Device.address
    simp; omega
  obtain ⟨⟨⟨script, sent'⟩, log⟩, fs, es, e1, e2, e3, e4, e5, e6⟩ := scanAt_isolates (probes_lossy k env ho hw purge hk devs losses hf hread st hst)
    hlen (15 - pos) (by omega) m ⟨hm, hid⟩ (⟨[], sent⟩, []) rfl
  simp only at e2
  subst e2
  simp only [foundOf, List.filterMap_nil, List.nil_append] at e3
  refine ⟨sent', log, es, ?_, ?_, e5, ?_⟩
  · unfold scanRange
    rw [if_neg (by have := hm.1; omega), if_neg (by omega), ← e1]
    congr 1
    simp only [Int.toNat_natCast]; omega
  · rw [show foundOf log = fs from e3]; exact e4
  · intro d
    rw [e6, show 15 - (15 - pos) = pos by omega]

/-- C125: in particular a scan of the whole address range reports every meter exactly once, if their identification numbers are
decimal and differ. -/
theorem C125_scan_all (k : Kind) (env : Env) (ho : IsOpen k env) (hw : Mbus.Writable env) (purge : Int) (hk : purge ≠ PURGE_S2M) (st : Settings)
    (losses : Nat) (hst : (losses : Int) ≤ st.maxSearchRetry) (devs : List Device) (hf : Lossy losses devs env) (hread : ∀ d ∈ devs, d.Readable)
    (hdec : ∀ d ∈ devs, d.Decimal) (hdist : devs.Pairwise (fun d e => d.p.take 4 ≠ e.p.take 4)) (sent : List (List Byte)) :
    ∃ sent' log es, scanRange ((busLink k env).ops purge).logged st (⟨[], sent⟩, []) 0 allWild = .ok (0, ⟨[], sent'⟩, log) ∧
      Pointwise Reports (foundOf log) es ∧ es.Perm devs := by
  have hlen : ∀ d ∈ devs, d.address.length = 8 := by
    intro d hd
    have := (hread d hd).2.1
    unfold Device.address
    simp; omega
  obtain ⟨s', fs, es, e1, e2, e3, e4, e5⟩ := scanAt_finds (probes_lossy k env ho hw purge hk devs losses hf hread st hst)
    hlen (fun d hd i hi => digitAt_dec d (hread d hd).2.1 (hdec d hd) i hi)
    (fun d hd e he hde => distinct_inj hdist d hd e he (digitAt_inj d e (hread d hd).2.1 (hread e he).2.1 hde))
    (distinct_nodup hdist) 15 0 (by omega) (by omega) allWild allWild_mask (by intro i hi; omega) ⟨0, by omega, by omega, .inl rfl⟩ (⟨[], sent⟩, []) rfl
  obtain ⟨⟨script, sent'⟩, log⟩ := s'
  simp only at e2
  subst e2
  simp only [foundOf, List.filterMap_nil, List.nil_append] at e3
  refine ⟨sent', log, es, ?_, ?_, ?_⟩
  · unfold scanRange
    rw [if_neg (by decide), if_neg (by omega), ← e1]
    rfl
  · rw [show foundOf log = fs from e3]; exact e4
  · have h1 : devs.filter (hits allWild) = devs := List.filter_eq_self.mpr (fun d _ => by rw [hits_selects _ allWild_mask]; exact allWild_selects d)
    rw [h1] at e5
    exact e5

/-- C125: the same for the command line tools that scan secondary addresses: one line per meter that is the only one selected by some mask tried. -/
theorem C125_tool (k : Kind) (env : Env) (ho : IsOpen k env) (hw : Mbus.Writable env) (purge : Int) (hk : purge ≠ PURGE_S2M) (st : Settings)
    (losses : Nat) (hst : (losses : Int) ≤ st.maxSearchRetry) (devs : List Device) (hf : Lossy losses devs env) (hread : ∀ d ∈ devs, d.Readable)
    (m : List Byte) (hm : AddressMask m) (hid : ∀ c ∈ m.take 8, IdDigit c) (before after : List (List Byte)) (hr : ResettableAll env before after) :
    ∃ sent' ls es, scanSecondaryTool ((busLink k env).ops purge) st ⟨[], before⟩ m = .ok ⟨0, ls, ⟨[], sent'⟩⟩ ∧
      es.Nodup ∧ (∀ d, d ∈ es ↔ Isolated devs 0 m d) ∧
      Pointwise (fun l d => ∃ x, l = .device (addressText d.address) x ∧ Refines 0 m x) ls es := by
  obtain ⟨sent', log, es, h1, h2, h3, h4⟩ := C125_scan k env ho hw purge hk st losses hst devs hf hread m hm hid 0 (by omega) after
  obtain ⟨ls, g1, g2⟩ := tool_of_scan k env ho hw purge st m hm before after hr sent' log es h1 h2
  exact ⟨sent', ls, es, g1, h3, h4, g2⟩

/-! what is not repeated: the request for the data of the selected meter -/

section
variable (k : Kind) (env : Env) (ho : IsOpen k env) (hw : Mbus.Writable env) (purge : Int) (hk : purge ≠ PURGE_S2M) (d : Device) (hf : LosesFirstData d env)
include ho hw hk hf

/-- a probe reports nothing if it does not select the meter, or no data was requested before -/
theorem loseLoop (m : List Byte) (hm : AddressMask m) (n : Nat) : ∀ (sent : List (List Byte)) (log : List Act) (ret : Int), ret = 0 → (hits m d = true → requestWire ∉ sent) →
    ∃ a sent' l, probeLoop ((busLink k env).ops purge).logged (⟨[], sent⟩, log) m ret n = .ok (0, a, (⟨[], sent'⟩, log ++ l)) ∧ foundOf l = [] ∧
      (hits m d = false → requestWire ∉ sent → requestWire ∉ sent') := by
  induction n with
  | zero =>
    intro sent log ret hret _
    exact ⟨none, sent, [], by rw [hret, probeLoop, List.append_nil], rfl, fun _ h => h⟩
  | succ n ih =>
    intro sent log ret hret hno
    obtain ⟨cs, hc, hresp, hcase⟩ := hf.selection sent (selBytes m) (selBytes_length m hm)
    have hresp : env.respond (sent ++ [(selT m).wire]) = evs cs := hresp
    have hcase : cs.flatten = if hits m d then [0xE5] else [] := hcase
    rw [probeLoop]
    cases hh : hits m d with
    | false =>
      rw [hh] at hcase
      simp only [Bool.false_eq_true, if_false] at hcase
      have hcs : cs = [] := by
        cases cs with
        | nil => rfl
        | cons c cs =>
          simp only [List.flatten_cons, List.append_eq_nil_iff] at hcase
          exact absurd hcase.1 (hc c (by simp))
      subst hcs
      have hsel := select_silence k env ho hw purge sent m hm hresp
      obtain ⟨l, h1, h2⟩ := select_lifted _ _ log _ _ _ hsel
      rw [h1, ok_bind]
      simp only
      rw [if_neg (by decide), if_neg (by decide)]
      obtain ⟨a, sent', l', e1, e2, e3⟩ := ih (sent ++ [(selT m).wire]) (log ++ l) PROBE_NOTHING rfl (by rw [hh]; intro h; cases h)
      refine ⟨a, sent', l ++ l', by rw [e1, List.append_assoc], by rw [foundOf_append, h2, e2]; rfl, fun _ hs => e3 hh ?_⟩
      intro hmem
      rcases List.mem_append.mp hmem with h | h
      · exact hs h
      · have := (selectionWire_sel (selBytes m) (selBytes_length m hm)).2
        exact this (List.mem_singleton.mp h).symm
    | true =>
      rw [hh] at hcase
      simp only [if_true] at hcase
      obtain ⟨r0, h1, h2, h3, _⟩ := select_ack k env ho hw purge hk sent m hm cs hc hresp [] hcase
      rw [h3 rfl] at h1
      obtain ⟨l, h1, h2⟩ := select_lifted _ _ log _ _ _ h1
      rw [h1, ok_bind]
      simp only [if_pos]
      have hresp : env.respond (sent ++ [(selT m).wire] ++ [(Telegram.short 0x5B (UInt8.ofNat (253 : Int).toNat)).wire]) = [] :=
        hf.first sent (selBytes m) (selBytes_length m hm) (hno hh)
      have hreq := bus_sendRequest k env ho hw purge (sent ++ [(selT m).wire]) 253 (by decide)
      rw [hresp] at hreq
      obtain ⟨l1, hreq', hl1⟩ := request_lifted _ _ (log ++ l) _ _ hreq
      unfold probeSelected
      rw [hreq', ok_bind]
      simp only
      rw [if_neg (by decide), logged_recv_eq]
      have hrec : ((busLink k env).ops purge).recv ⟨[], sent ++ [(selT m).wire] ++ [(Telegram.short 0x5B (UInt8.ofNat (253 : Int).toNat)).wire]⟩ Frame.zero =
        .ok (RECV_TIMEOUT, Frame.zero, ⟨[], sent ++ [(selT m).wire] ++ [(Telegram.short 0x5B (UInt8.ofNat (253 : Int).toNat)).wire]⟩) := recv_silent k env ho purge _ _
      rw [hrec]
      refine ⟨none, sent ++ [(selT m).wire] ++ [(Telegram.short 0x5B (UInt8.ofNat (253 : Int).toNat)).wire], l ++ (l1 ++ [.received RECV_TIMEOUT Frame.zero]), ?_, ?_, fun h => by cases h⟩
      · simp only [ok_bind, if_pos, List.append_assoc]
        rfl
      · rw [foundOf_append, foundOf_append, h2, hl1]; rfl

theorem loseScan (st : Settings) (sub : Bus × List Act → List Byte → C (Int × (Bus × List Act))) (h8 : d.address.length = 8) (ds : List Byte) :
    ds.Nodup → (∀ x ∈ ds, IsDec x) → ∀ (m' : List Byte) (_ : ∀ x, m'.set 0 x = allWild.set 0 x) (sent : List (List Byte)) (log : List Act),
    (digitAt d 0 ∈ ds → requestWire ∉ sent) →
    ∃ sent' l, scanLoop ((busLink k env).ops purge).logged st 0 sub m' ds (⟨[], sent⟩, log) = .ok (0, (⟨[], sent'⟩, log ++ l)) ∧ foundOf l = [] := by
  induction ds with
  | nil => intro _ _ m' _ sent log _; exact ⟨sent, [], by rw [scanLoop, List.append_nil], rfl⟩
  | cons x ds ih =>
    intro hnd hdec m' hm' sent log hno
    have hx := hdec x (by simp)
    have hmask : IdMask (allWild.set 0 x) := by
      refine ⟨rfl, fun i hi => ?_, fun i h8 hi => ?_⟩
      · cases i with
        | zero => exact .inl hx
        | succ i => exact .inr ((by decide +kernel : ∀ i, i < 16 → IsWild ((70 :: allWild.drop 1).getD i 0)) (i + 1) (by omega))
      · cases i with
        | zero => omega
        | succ i => exact (by decide +kernel : ∀ i, i < 16 → IsWild ((70 :: allWild.drop 1).getD i 0)) (i + 1) (by omega)
    have hhit : hits (allWild.set 0 x) d = true → x = digitAt d 0 := by
      intro h
      rcases (hits_iff _ hmask d h8).mp h 0 (by omega) with h | h
      · exact absurd h (dec_not_wild _ hx)
      · exact h
    rw [scanLoop, hm' x]
    obtain ⟨a, sent1, l1, e1, e2, e3⟩ := loseLoop k env ho hw purge hk d hf (allWild.set 0 x) (idMask_address _ hmask) (st.maxSearchRetry + 1).toNat sent
      (log ++ [.progress (allWild.set 0 x)]) 0 rfl (fun h => hno (by rw [← hhit h]; simp))
    have e1' : probeSecondary ((busLink k env).ops purge).logged st (((busLink k env).ops purge).logged.progress (⟨[], sent⟩, log) (allWild.set 0 x)) (allWild.set 0 x) =
      .ok (0, a, (⟨[], sent1⟩, log ++ [.progress (allWild.set 0 x)] ++ l1)) := by
      unfold probeSecondary
      rw [if_neg (by rw [hmask.length]; decide)]
      exact e1
    obtain ⟨sent2, l2, g1, g2⟩ := ih (List.nodup_cons.mp hnd).2 (fun y hy => hdec y (by simp [hy])) (allWild.set 0 x) (by simp) sent1
      (log ++ [.progress (allWild.set 0 x)] ++ l1) (fun hin => e3 (by
        cases hh : hits (allWild.set 0 x) d with
        | false => rfl
        | true => exact absurd (by rw [hhit hh]; exact hin) (List.nodup_cons.mp hnd).1) (hno (by simp [hin])))
    refine ⟨sent2, [.progress (allWild.set 0 x)] ++ l1 ++ l2, ?_, by rw [foundOf_append, foundOf_append, e2, g2]; rfl⟩
    simp only
    rw [e1', ok_bind]
    simp only
    rw [if_neg (by decide), if_neg (by decide), if_pos (by decide), g1]
    simp only [List.append_assoc]

end

/-- C125 (what does not hold): the retries do not cover the request for the data of the selected meter.  If nothing but the first
data telegram of the only meter is lost, the scan, with any number of search retries, finishes with success and reports no meter. -/
theorem C125_data_lost_violation (k : Kind) (env : Env) (ho : IsOpen k env) (hw : Mbus.Writable env) (purge : Int) (hk : purge ≠ PURGE_S2M) (st : Settings)
    (d : Device) (hr : d.Readable) (hf : LosesFirstData d env) (sent : List (List Byte)) (hs : requestWire ∉ sent) :
    ∃ sent' log, scanRange ((busLink k env).ops purge).logged st (⟨[], sent⟩, []) 0 allWild = .ok (0, ⟨[], sent'⟩, log) ∧ foundOf log = [] := by
  have h8 : d.address.length = 8 := by
    have := hr.2.1
    unfold Device.address
    simp; omega
  obtain ⟨sent', l, h1, h2⟩ := loseScan k env ho hw purge hk d hf st (scanAt ((busLink k env).ops purge).logged st 15) h8 decimalDigits (by decide) (by decide) allWild (fun _ => rfl) sent []
    (fun _ => hs)
  refine ⟨sent', l, ?_, h2⟩
  unfold scanRange
  rw [if_neg (by decide), if_neg (by decide), show 16 - Int.toNat 0 = 15 + 1 from rfl, scanAt, show rd allWild (15 - 15) = .ok 70 from rfl, ok_bind, if_pos (.inr rfl)]
  exact h1

/-! non-vacuity: buses that lose telegrams -/

/-- the meters `devs` on a bus that loses every selection that is not a repetition of the telegram before -/
def leakyAnswer (devs : List Device) : List (List Byte) → List (List Byte)
  | [] => []
  | [_] => []
  | x :: y :: r => if x = requestWire ∨ x = y then idealAnswer devs (x :: y :: r) else []

/-- that bus; the first selection with an address is always lost -/
def leakyBus (devs : List Device) : Env where
  respond sent := evs (leakyAnswer devs sent.reverse)
  junk _ := 0
  wret _ n := n
  tty := true

theorem leakyBus_lossy (devs : List Device) : Lossy 1 devs (leakyBus devs) := by
  have hideal := idealBus_faithful devs
  constructor
  · intro sent sel hsel
    obtain ⟨h1, h2⟩ := selectionWire_sel sel hsel
    by_cases hl : [selectionWire sel] <:+ sent
    · obtain ⟨pre, rfl⟩ := hl
      obtain ⟨cs, g1, g2, g3⟩ := hideal.selection (pre ++ [selectionWire sel]) sel hsel
      refine ⟨cs, g1, ?_, .inr g3⟩
      rw [← g2]
      show evs (leakyAnswer devs _) = evs (idealAnswer devs _)
      rw [List.reverse_append, List.reverse_append, List.reverse_singleton, List.singleton_append, List.singleton_append, leakyAnswer, if_pos (.inr rfl)]
    · refine ⟨[], (by intro c hc; cases hc), ?_, .inl ⟨rfl, hl⟩⟩
      show evs (leakyAnswer devs _) = evs []
      rw [List.reverse_append, List.reverse_singleton, List.singleton_append]
      cases hrev : sent.reverse with
      | nil => rfl
      | cons y r =>
        have : selectionWire sel ≠ y := by
          rintro rfl
          refine hl ⟨r.reverse, ?_⟩
          have := congrArg List.reverse hrev
          rw [List.reverse_reverse, List.reverse_cons] at this
          exact this.symm
        rw [leakyAnswer, if_neg (by rintro (h | h); exact h2 h; exact this h)]
  · intro sent sel hsel _
    obtain ⟨cs, g1, g2, g3⟩ := hideal.request sent sel hsel
    refine ⟨cs, g1, ?_, g3⟩
    rw [← g2]
    show evs (leakyAnswer devs _) = evs (idealAnswer devs _)
    rw [List.reverse_append, List.reverse_append, List.reverse_singleton, List.reverse_singleton, List.singleton_append, List.singleton_append, leakyAnswer, if_pos (.inl rfl)]

/-- with one repetition the scan finds both meters although every first selection is lost -/
example (k : Kind) : ∃ sent' log es, scanRange ((busLink k (leakyBus twoMeters)).ops PURGE_M2S).logged ⟨3, 1, PURGE_M2S⟩ (⟨[], []⟩, []) 0 allWild =
    .ok (0, ⟨[], sent'⟩, log) ∧ Pointwise Reports (foundOf log) es ∧ es.Perm twoMeters :=
  C125_scan_all k _ (.inr rfl) (fun _ _ => rfl) _ (by decide) _ 1 (by decide) _ (leakyBus_lossy _) (twoMeters_scannable k).readable (twoMeters_scannable k).decimal (twoMeters_scannable k).distinct []

/-- hypotheses of C125_scan and of C125_tool: the three meters with one identification number -/
example (k : Kind) : ∃ sent' log es, scanRange ((busLink k (leakyBus oneNumber)).ops PURGE_M2S).logged ⟨3, 1, PURGE_M2S⟩ (⟨[], []⟩, []) (0 : Nat) numberMask =
    .ok (0, ⟨[], sent'⟩, log) ∧ Pointwise Reports (foundOf log) es ∧ ⟨0x08, 3, [0x78, 0x56, 0x34, 0x12, 0x15, 0x40, 1, 7, 0, 0, 0, 0]⟩ ∈ es := by
  obtain ⟨sent', log, es, h1, h2, _, h4⟩ := C125_scan k (leakyBus oneNumber) (.inr rfl) (fun _ _ => rfl) PURGE_M2S (by decide) ⟨3, 1, PURGE_M2S⟩ 1 (by decide)
    oneNumber (leakyBus_lossy _) oneNumber_readable numberMask ⟨rfl, by decide +kernel⟩ (by decide +kernel) 0 (by decide) []
  exact ⟨sent', log, es, h1, h2, (h4 _).mpr oneNumber_third⟩
example (k : Kind) : ∃ sent' ls x, scanSecondaryTool ((busLink k (leakyBus oneNumber)).ops PURGE_M2S) ⟨3, 1, PURGE_M2S⟩ ⟨[], []⟩ numberMask = .ok ⟨0, ls, ⟨[], sent'⟩⟩ ∧
    Line.device (addressText [0x78, 0x56, 0x34, 0x12, 0x15, 0x40, 1, 7]) x ∈ ls := by
  obtain ⟨sent', ls, es, h1, _, h3, h4⟩ := C125_tool k (leakyBus oneNumber) (.inr rfl) (fun _ _ => rfl) PURGE_M2S (by decide) ⟨3, 1, PURGE_M2S⟩ 1 (by decide)
    oneNumber (leakyBus_lossy _) oneNumber_readable numberMask ⟨rfl, by decide +kernel⟩ (by decide +kernel) [] [pingWire 0xFD, pingWire 0xFF]
    ⟨rfl, ⟨[], (by unfold Chunks; decide), by decide +kernel⟩, ⟨[], (by unfold Chunks; decide), by decide +kernel⟩⟩
  have key : ∀ {ls es}, Pointwise (fun (l : Line) (d : Device) => ∃ x, l = .device (addressText d.address) x ∧ Refines 0 numberMask x) ls es →
      ∀ d ∈ es, ∃ x, Line.device (addressText d.address) x ∈ ls := by
    intro ls es h
    induction h with
    | nil => intro d hd; simp at hd
    | cons h _ ih =>
      intro d hd
      rcases List.mem_cons.mp hd with rfl | hd
      · obtain ⟨x, rfl, _⟩ := h; exact ⟨x, by simp⟩
      · obtain ⟨x, hx⟩ := ih d hd; exact ⟨x, by simp [hx]⟩
  obtain ⟨x, hx⟩ := key h4 _ ((h3 _).mpr oneNumber_third)
  exact ⟨sent', ls, x, h1, hx⟩

/-- the answers of the meter `d` if its first data are lost (newest telegram first) -/
def forgetfulAnswer (d : Device) : List (List Byte) → List (List Byte)
  | [] => []
  | [x] => idealAnswer [d] [x]
  | x :: y :: r => if x = requestWire ∧ requestWire ∉ r then [] else idealAnswer [d] (x :: y :: r)

/-- that bus -/
def forgetfulBus (d : Device) : Env where
  respond sent := evs (forgetfulAnswer d sent.reverse)
  junk _ := 0
  wret _ n := n
  tty := true

theorem forgetfulBus_loses (d : Device) : LosesFirstData d (forgetfulBus d) := by
  have hideal := idealBus_faithful [d]
  have hpick : ∀ sel, ([d].filter fun d => selects sel d.address) = if selects sel d.address then [d] else [] := by
    intro sel
    rw [List.filter_cons, List.filter_nil]
  constructor
  · intro sent sel hsel
    obtain ⟨h1, h2⟩ := selectionWire_sel sel hsel
    obtain ⟨cs, g1, g2, g3⟩ := hideal.selection sent sel hsel
    refine ⟨cs, g1, ?_, ?_⟩
    · rw [← g2]
      show evs (forgetfulAnswer d _) = evs (idealAnswer [d] _)
      rw [List.reverse_append, List.reverse_singleton, List.singleton_append]
      cases sent.reverse with
      | nil => rfl
      | cons y r => rw [forgetfulAnswer, if_neg (by rintro ⟨h, _⟩; exact h2 h)]
    · rw [hpick] at g3
      cases hs : selects sel d.address <;> rw [hs] at g3 <;> exact g3
  · intro sent sel hsel hno
    show evs (forgetfulAnswer d _) = []
    rw [List.reverse_append, List.reverse_append, List.reverse_singleton, List.reverse_singleton, List.singleton_append, List.singleton_append, forgetfulAnswer,
      if_pos ⟨rfl, by simpa using hno⟩]
    rfl
  · intro sent sel hsel hin
    obtain ⟨cs, g1, g2, g3⟩ := hideal.request sent sel hsel
    refine ⟨cs, g1, ?_, ?_⟩
    · rw [← g2]
      show evs (forgetfulAnswer d _) = evs (idealAnswer [d] _)
      rw [List.reverse_append, List.reverse_append, List.reverse_singleton, List.reverse_singleton, List.singleton_append, List.singleton_append, forgetfulAnswer,
        if_neg (by rintro ⟨_, h⟩; exact h (by simpa using hin))]
    · rw [hpick] at g3
      cases hs : selects sel d.address <;> rw [hs] at g3 <;> exact g3

/-- hypotheses of C125_data_lost_violation, with a hundred retries -/
example (k : Kind) : ∃ sent' log, scanRange ((busLink k (forgetfulBus ⟨0x08, 1, [0x78, 0x56, 0x34, 0x12, 0x24, 0x40, 1, 7, 0, 0, 0, 0]⟩)).ops PURGE_M2S).logged ⟨3, 100, PURGE_M2S⟩ (⟨[], []⟩, []) 0 allWild =
    .ok (0, ⟨[], sent'⟩, log) ∧ foundOf log = [] :=
  C125_data_lost_violation k _ (.inr rfl) (fun _ _ => rfl) _ (by decide) _ ⟨0x08, 1, [0x78, 0x56, 0x34, 0x12, 0x24, 0x40, 1, 7, 0, 0, 0, 0]⟩
    ⟨by decide, by decide, by decide, [], .nil⟩ (forgetfulBus_loses _) [] (by simp)

end Mbus
