import Verif.Spec.Late
import Verif.Props.ToolScan
import Verif.Props.Poll
/-
C128: tools on a bus on which the answers come late.
-/
namespace Mbus
open Spec

theorem Spec.Arrives.silent {es : List Ev} (h : Arrives [] es) : es = [] := by
  obtain ⟨cs, hc, hf, rfl⟩ := h
  rw [chunks_nil cs hc hf]; rfl

theorem Spec.Delayed.last {answer : List (List Byte) → List Byte} {env : Env} (h : Delayed 1 answer env) (sent : List (List Byte)) (w x : List Byte) :
    Arrives (answer (sent ++ [w])) (env.respond (sent ++ [w] ++ [x])) := by
  have := h (sent ++ [w] ++ [x])
  rw [if_pos (by simp), show (sent ++ [w] ++ [x]).length - 1 = (sent ++ [w]).length by simp, List.take_left'] at this
  · exact this
  · rfl

section
variable (k : Kind) (env : Env) (ho : IsOpen k env) (hw : Mbus.Writable env) (purge : Int)
include ho hw

/-- an unanswered ping -/
theorem pingLoop_unanswered (a : Nat) (ha : a ≤ 255) (n : Nat) (sent : List (List Byte)) (ret : Int)
    (h : Arrives [] (env.respond (sent ++ [pingWire (UInt8.ofNat a)]))) :
    pingLoop ((busLink k env).ops purge) a (n + 1) ⟨[], sent⟩ Frame.zero ret =
      pingLoop ((busLink k env).ops purge) a n ⟨[], sent ++ [pingWire (UInt8.ofNat a)]⟩ Frame.zero RECV_TIMEOUT := by
  conv => lhs; unfold pingLoop
  rw [bus_sendPing k env ho hw purge sent a ha, ok_bind]
  dsimp only
  rw [if_neg (by decide), h.silent]
  show (recvFrame (busLink k env) purge ⟨[], _⟩ Frame.zero >>= _) = _
  rw [recv_silent k env ho, ok_bind]
  dsimp only
  rw [if_neg (by simp)]

/-- a ping after which an acknowledge arrives -/
theorem pingLoop_acked (hp : purge ≠ PURGE_S2M) (a : Nat) (ha : a ≤ 255) (n : Nat) (sent : List (List Byte)) (ret : Int)
    (h : Arrives [0xE5] (env.respond (sent ++ [pingWire (UInt8.ofNat a)]))) :
    ∃ g, pingLoop ((busLink k env).ops purge) a (n + 1) ⟨[], sent⟩ Frame.zero ret = .ok (RECV_OK, g, ⟨[], sent ++ [pingWire (UInt8.ofNat a)]⟩) ∧
      g.type = TYPE_ACK := by
  obtain ⟨cs, hc, hf, he⟩ := h
  obtain ⟨g, cs', h1, h2, h3, h4⟩ := recv_ack1 k env ho purge hp (sent ++ [pingWire (UInt8.ofNat a)]) cs hc [] hf Frame.zero
  refine ⟨g, ?_, h2⟩
  unfold pingLoop
  rw [bus_sendPing k env ho hw purge sent a ha, ok_bind]
  dsimp only
  rw [if_neg (by decide), he]
  rw [show ((busLink k env).ops purge).recv ⟨evs cs, sent ++ [pingWire (UInt8.ofNat a)]⟩ Frame.zero = _ from h1, ok_bind]
  dsimp only
  rw [if_pos (by decide), chunks_nil cs' h3 h4]
  rfl

omit hw in
theorem finishScan_acked (a : Int) (g : Frame) (hg : g.type = TYPE_ACK) (sent : List (List Byte)) :
    finishScan ((busLink k env).ops purge) a (RECV_OK, g, ⟨[], sent⟩) = .ok ([.found a], ⟨[], sent⟩) := by
  unfold finishScan
  dsimp only
  rw [if_neg (by decide), if_neg (by decide), if_pos hg]
  show (purgeFrames (busLink k env) purge ⟨[], sent⟩ >>= _) = _
  rw [purge_silent k env ho, ok_bind]
  rfl

variable (hp : purge ≠ PURGE_S2M)
include hp

/-- one ping per address -/
theorem scanAddress_single (st : Settings) (hst : st.maxSearchRetry = 0) (a : Nat) (ha : a ≤ 255) (sent : List (List Byte)) (p : Prop) [Decidable p]
    (h : Arrives (if p then [0xE5] else []) (env.respond (sent ++ [pingWire (UInt8.ofNat a)]))) :
    scanAddress ((busLink k env).ops purge) st ⟨[], sent⟩ a = .ok (if p then [.found a] else [], ⟨[], sent ++ [pingWire (UInt8.ofNat a)]⟩) := by
  rw [scanAddress_eq, pingAddress, hst]
  show (pingLoop _ _ (0 + 1) _ _ _ >>= _) = _
  by_cases hq : p
  · rw [if_pos hq] at h
    obtain ⟨g, h1, h2⟩ := pingLoop_acked k env ho hw purge hp a ha 0 sent RECV_ERROR h
    rw [h1, ok_bind, finishScan_acked k env ho purge a g h2, if_pos hq]
  · rw [if_neg hq] at h
    rw [pingLoop_unanswered k env ho hw purge a ha 0 sent RECV_ERROR h, pingLoop, ok_bind, if_neg hq]
    rfl

theorem scanFrom_single (st : Settings) (hst : st.maxSearchRetry = 0) (d : Nat) (addrs : List Byte) (answer : List (List Byte) → List Byte)
    (hd : Delayed d answer env) (ha : AcksPings addrs answer) (n : Nat) : ∀ (a : Nat), a + n ≤ 256 →
    scanFrom ((busLink k env).ops purge) st n a ⟨[], (List.range' 0 a).map fun i => pingWire (UInt8.ofNat i)⟩ =
      .ok ((List.range' a n).flatMap (fun i => if d ≤ i ∧ UInt8.ofNat (i - d) ∈ addrs then [Line.found i] else []),
        ⟨[], (List.range' 0 (a + n)).map fun i => pingWire (UInt8.ofNat i)⟩) := by
  induction n with
  | zero => intro a _; simp [scanFrom]
  | succ n ih =>
    intro a han
    have hsplit : (List.range' 0 (a + 1)).map (fun i => pingWire (UInt8.ofNat i)) = (List.range' 0 a).map (fun i => pingWire (UInt8.ofNat i)) ++ [pingWire (UInt8.ofNat a)] := by
      simp [List.range'_concat]
    unfold scanFrom
    have harr : Arrives (if d ≤ a ∧ UInt8.ofNat (a - d) ∈ addrs then [0xE5] else [])
        (env.respond ((List.range' 0 a).map (fun i => pingWire (UInt8.ofNat i)) ++ [pingWire (UInt8.ofNat a)])) := by
      have h := hd ((List.range' 0 (a + 1)).map fun i => pingWire (UInt8.ofNat i))
      rw [← hsplit]
      by_cases hda : d ≤ a
      · have : ((List.range' 0 (a + 1)).map fun i => pingWire (UInt8.ofNat i)).take (((List.range' 0 (a + 1)).map fun i => pingWire (UInt8.ofNat i)).length - d) =
            ((List.range' 0 (a - d)).map fun i => pingWire (UInt8.ofNat i)) ++ [pingWire (UInt8.ofNat (a - d))] := by
          rw [← List.map_take, show (List.map (fun i => pingWire (UInt8.ofNat i)) (List.range' 0 (a + 1))).length - d = a - d + 1 by simp; omega,
            ← List.range_eq_range', List.take_range, show min (a - d + 1) (a + 1) = a - d + 1 by omega, List.range_succ, List.range_eq_range']
          simp
        rw [this, ha] at h
        simpa [hda, show d < a + 1 by omega] using h
      · rw [if_neg (by simp; omega)] at h
        simpa [hda] using h
    rw [scanAddress_single k env ho hw purge hp st hst a (by omega) _ _ harr, ok_bind]
    dsimp only
    rw [← hsplit, ih (a + 1) (by omega), ok_bind]
    rw [show a + 1 + n = a + (n + 1) by omega]
    simp [List.range'_succ]

/-- one address with retries, answers one transmission late: `hot` tells whether the last transmission so far is answered -/
theorem scanAddress_hot (st : Settings) (hst : 1 ≤ st.maxSearchRetry) (addrs : List Byte) (answer : List (List Byte) → List Byte)
    (hd : Delayed 1 answer env) (hap : AcksPings addrs answer) (a : Nat) (ha : a ≤ 255) (sent : List (List Byte)) (p : Prop) [Decidable p]
    (h : Arrives (if p then [0xE5] else []) (env.respond (sent ++ [pingWire (UInt8.ofNat a)]))) :
    ∃ m, scanAddress ((busLink k env).ops purge) st ⟨[], sent⟩ a =
      .ok (if p ∨ UInt8.ofNat a ∈ addrs then [.found a] else [], ⟨[], sent ++ List.replicate m (pingWire (UInt8.ofNat a)) ++ [pingWire (UInt8.ofNat a)]⟩) := by
  rw [scanAddress_eq, pingAddress]
  obtain ⟨n, hn⟩ : ∃ n, (st.maxSearchRetry + 1).toNat = n + 1 + 1 := ⟨(st.maxSearchRetry - 1).toNat, by omega⟩
  rw [hn]
  by_cases hq : p
  · rw [if_pos hq] at h
    obtain ⟨g, h1, h2⟩ := pingLoop_acked k env ho hw purge hp a ha (n + 1) sent RECV_ERROR h
    refine ⟨0, ?_⟩
    rw [h1, ok_bind, finishScan_acked k env ho purge a g h2, if_pos (.inl hq)]
    simp
  · rw [if_neg hq] at h
    rw [pingLoop_unanswered k env ho hw purge a ha (n + 1) sent RECV_ERROR h]
    by_cases hm : UInt8.ofNat a ∈ addrs
    · obtain ⟨g, h1, h2⟩ := pingLoop_acked k env ho hw purge hp a ha n (sent ++ [pingWire (UInt8.ofNat a)]) RECV_TIMEOUT (by
        have := hd.last sent (pingWire (UInt8.ofNat a)) (pingWire (UInt8.ofNat a))
        rwa [hap, if_pos hm] at this)
      refine ⟨1, ?_⟩
      rw [h1, ok_bind, finishScan_acked k env ho purge a g h2, if_pos (.inr hm)]
      simp
    · have quiet : ∀ n sent, pingLoop ((busLink k env).ops purge) a n ⟨[], sent ++ [pingWire (UInt8.ofNat a)]⟩ Frame.zero RECV_TIMEOUT =
          .ok (RECV_TIMEOUT, Frame.zero, ⟨[], sent ++ List.replicate n (pingWire (UInt8.ofNat a)) ++ [pingWire (UInt8.ofNat a)]⟩) := by
        intro n
        induction n with
        | zero => intro sent; simp [pingLoop]
        | succ n ih =>
          intro sent
          rw [pingLoop_unanswered k env ho hw purge a ha n _ RECV_TIMEOUT (by
            have := hd.last sent (pingWire (UInt8.ofNat a)) (pingWire (UInt8.ofNat a))
            rwa [hap, if_neg hm] at this), ih]
          simp [List.replicate_succ]
      refine ⟨n + 1, ?_⟩
      rw [quiet, ok_bind, if_neg (by simp [hq, hm])]
      rfl

theorem scanFrom_hot (st : Settings) (hst : 1 ≤ st.maxSearchRetry) (addrs : List Byte) (answer : List (List Byte) → List Byte)
    (hd : Delayed 1 answer env) (hap : AcksPings addrs answer) (n : Nat) : ∀ (a : Nat) (sent : List (List Byte)), a + n ≤ 256 →
    (a = 0 ∧ sent = [] ∨ 1 ≤ a ∧ ∃ s, sent = s ++ [pingWire (UInt8.ofNat (a - 1))]) → ∃ sent',
    scanFrom ((busLink k env).ops purge) st n a ⟨[], sent⟩ =
      .ok ((List.range' a n).flatMap (fun i => if (1 ≤ i ∧ UInt8.ofNat (i - 1) ∈ addrs) ∨ UInt8.ofNat i ∈ addrs then [Line.found i] else []), ⟨[], sent'⟩) := by
  induction n with
  | zero => intro a sent _ _; exact ⟨sent, by simp [scanFrom]⟩
  | succ n ih =>
    intro a sent han hinv
    have harr : Arrives (if 1 ≤ a ∧ UInt8.ofNat (a - 1) ∈ addrs then [0xE5] else []) (env.respond (sent ++ [pingWire (UInt8.ofNat a)])) := by
      rcases hinv with ⟨rfl, rfl⟩ | ⟨h1, s, rfl⟩
      · have := hd [pingWire (UInt8.ofNat 0)]
        simpa using this
      · have := hd.last s (pingWire (UInt8.ofNat (a - 1))) (pingWire (UInt8.ofNat a))
        rw [hap] at this
        simpa [h1] using this
    obtain ⟨m, h1⟩ := scanAddress_hot k env ho hw purge hp st hst addrs answer hd hap a (by omega) sent _ harr
    obtain ⟨sent', h2⟩ := ih (a + 1) (sent ++ List.replicate m (pingWire (UInt8.ofNat a)) ++ [pingWire (UInt8.ofNat a)]) (by omega) (.inr ⟨by omega, _, rfl⟩)
    refine ⟨sent', ?_⟩
    unfold scanFrom
    rw [h1, ok_bind]
    dsimp only
    rw [h2, ok_bind]
    simp [List.range'_succ]

end

section
variable (k : Kind) (env : Env) (ho : IsOpen k env) (hw : Mbus.Writable env) (purge : Int) (hp : purge ≠ PURGE_S2M)
include ho hw hp

/-- C128: without retries a primary scan reports every address displaced by the delay. -/
theorem C128_shifted (st : Settings) (d : Nat) (addrs : List Byte) (answer : List (List Byte) → List Byte) (hd : Delayed d answer env)
    (ha : AcksPings addrs answer) :
    ∃ ls, scanTool ((busLink k env).ops purge) st ⟨[], []⟩ 0 = .ok ⟨0, ls, ⟨[], (List.range 251).map fun i => pingWire (UInt8.ofNat i)⟩⟩ ∧
      ls.Pairwise (fun x y => ∃ i j : Nat, i < j ∧ x = .found i ∧ y = .found j) ∧
      ∀ l, l ∈ ls ↔ ∃ b ∈ addrs, b.toNat + d ≤ 250 ∧ l = .found ((b.toNat + d : Nat) : Int) := by
  have hs : setOption st 1 0 = (0, { st with maxSearchRetry := 0 }) := by
    unfold setOption
    rw [if_neg (by decide), if_pos rfl, if_pos (by decide)]
  have h := scanFrom_single k env ho hw purge hp { st with maxSearchRetry := 0 } rfl d addrs answer hd ha (MAX_PRIMARY_SLAVES + 1) 0 (by decide)
  refine ⟨(List.range' 0 (MAX_PRIMARY_SLAVES + 1)).flatMap (fun i => if d ≤ i ∧ UInt8.ofNat (i - d) ∈ addrs then [Line.found i] else []), ?_, ?_, ?_⟩
  case refine_1 =>
    unfold scanTool
    rw [hs, List.range_eq_range']
    dsimp only
    rw [if_neg (by decide)]
    erw [h]
    rfl
  case refine_2 =>
    rw [List.pairwise_flatMap]
    refine ⟨fun i _ => by split <;> simp, ?_⟩
    refine List.Pairwise.imp_of_mem ?_ (List.pairwise_lt_range' (s := 0) (n := MAX_PRIMARY_SLAVES + 1) (step := 1) (by decide))
    intro i j _ _ hij x hx y hy
    split at hx
    · split at hy
      · simp at hx hy; exact ⟨i, j, hij, hx, hy⟩
      · simp at hy
    · simp at hx
  case refine_3 =>
    intro l
    simp only [List.mem_flatMap, List.mem_range'_1]
    constructor
    · rintro ⟨i, ⟨_, hi⟩, hl⟩
      split at hl
      case isTrue hc =>
        simp at hl
        refine ⟨_, hc.2, ?_, ?_⟩
        · simp [MAX_PRIMARY_SLAVES] at hi ⊢; omega
        · rw [hl]; congr 1; simp [MAX_PRIMARY_SLAVES] at hi ⊢; omega
      case isFalse => simp at hl
    · rintro ⟨b, hb, hle, rfl⟩
      refine ⟨b.toNat + d, ⟨by omega, by simp [MAX_PRIMARY_SLAVES]; omega⟩, ?_⟩
      rw [if_pos ⟨by omega, by simpa using hb⟩]
      simp

/-- C128: with retries (and a delay of one transmission) it reports the address of every meter and the address after it. -/
theorem C128_ghosts (st : Settings) (retries : Int) (hr : 1 ≤ retries ∧ retries ≤ 9) (addrs : List Byte) (answer : List (List Byte) → List Byte)
    (hd : Delayed 1 answer env) (ha : AcksPings addrs answer) :
    ∃ ls sent, scanTool ((busLink k env).ops purge) st ⟨[], []⟩ retries = .ok ⟨0, ls, ⟨[], sent⟩⟩ ∧
      ls.Pairwise (fun x y => ∃ i j : Nat, i < j ∧ x = .found i ∧ y = .found j) ∧
      ∀ l, l ∈ ls ↔ ∃ b ∈ addrs, ∃ i : Nat, (i = b.toNat ∨ i = b.toNat + 1) ∧ i ≤ 250 ∧ l = .found i := by
  have hs : setOption st 1 retries = (0, { st with maxSearchRetry := retries }) := by
    unfold setOption
    rw [if_neg (by decide), if_pos rfl, if_pos (by omega)]
  obtain ⟨sent, h⟩ := scanFrom_hot k env ho hw purge hp { st with maxSearchRetry := retries } hr.1 addrs answer hd ha (MAX_PRIMARY_SLAVES + 1) 0 [] (by decide) (.inl ⟨rfl, rfl⟩)
  refine ⟨(List.range' 0 (MAX_PRIMARY_SLAVES + 1)).flatMap (fun i => if (1 ≤ i ∧ UInt8.ofNat (i - 1) ∈ addrs) ∨ UInt8.ofNat i ∈ addrs then [Line.found i] else []), sent, ?_, ?_, ?_⟩
  case refine_1 =>
    unfold scanTool
    rw [hs]
    dsimp only
    rw [if_neg (by decide), h]
    rfl
  case refine_2 =>
    rw [List.pairwise_flatMap]
    refine ⟨fun i _ => by split <;> simp, ?_⟩
    refine List.Pairwise.imp_of_mem ?_ (List.pairwise_lt_range' (s := 0) (n := MAX_PRIMARY_SLAVES + 1) (step := 1) (by decide))
    intro i j _ _ hij x hx y hy
    split at hx
    · split at hy
      · simp at hx hy; exact ⟨i, j, hij, hx, hy⟩
      · simp at hy
    · simp at hx
  case refine_3 =>
    intro l
    simp only [List.mem_flatMap, List.mem_range'_1]
    constructor
    · rintro ⟨i, ⟨_, hi⟩, hl⟩
      simp [MAX_PRIMARY_SLAVES] at hi
      split at hl
      case isTrue hc =>
        simp at hl
        rcases hc with ⟨h1, hc⟩ | hc
        · exact ⟨_, hc, i, .inr (by simp; omega), by omega, hl⟩
        · exact ⟨_, hc, i, .inl (by simp; omega), by omega, hl⟩
      case isFalse => simp at hl
    · rintro ⟨b, hb, i, hi, hle, rfl⟩
      refine ⟨i, ⟨by omega, by simp [MAX_PRIMARY_SLAVES]; omega⟩, ?_⟩
      rw [if_pos (by
        rcases hi with rfl | rfl
        · exact .inr (by simpa using hb)
        · exact .inl ⟨by omega, by simpa using hb⟩)]
      simp

/-- C128: mbus-serial-set-address, for a meter named by its primary address, always sends the command, and prints success only if
the new address is occupied (and the delay is one transmission). -/
theorem C128_set_address (junk : Frame) (old new : List Byte) (m n : Nat) (hold : Numeral old m) (hmask : ¬ AddressMask old) (hm : m ≤ 255)
    (hnew : Numeral new n) (hn : n ≤ 252) (d : Nat) (hd1 : 1 ≤ d) (addrs : List Byte) (answer : List (List Byte) → List Byte) (hd : Delayed d answer env)
    (ha : AcksPings addrs answer) (hfd : 0xFD ∉ addrs) :
    setAddressTool junk ((busLink k env).ops purge) ⟨[], []⟩ old new =
      .ok ⟨if d = 1 ∧ UInt8.ofNat n ∈ addrs then 0 else 1, if d = 1 ∧ UInt8.ofNat n ∈ addrs then [.addressSet n] else [],
        ⟨[], [pingWire 0xFD, pingWire 0xFD, pingWire (UInt8.ofNat n), assignWire (UInt8.ofNat m) (UInt8.ofNat n)]⟩⟩ := by
  have hfd1 : answer [pingWire 0xFD] = [] := by have := ha [] 0xFD; rwa [if_neg hfd] at this
  have hfd2 : answer [pingWire 0xFD, pingWire 0xFD] = [] := by have := ha [pingWire 0xFD] 0xFD; rwa [if_neg hfd] at this
  have r1 : env.respond [pingWire 0xFD] = [] := by
    have h := hd [pingWire 0xFD]
    match d, hd1 with
    | d + 1, _ => exact Arrives.silent (by simpa using h)
  have r2 : env.respond [pingWire 0xFD, pingWire 0xFD] = [] := by
    have h := hd [pingWire 0xFD, pingWire 0xFD]
    match d, hd1 with
    | 1, _ => exact Arrives.silent (by simpa [hfd1, hfd2] using h)
    | d + 2, _ => exact Arrives.silent (by rwa [if_neg (by simp)] at h)
  have r3 : env.respond [pingWire 0xFD, pingWire 0xFD, pingWire (UInt8.ofNat n)] = [] := by
    have h := hd [pingWire 0xFD, pingWire 0xFD, pingWire (UInt8.ofNat n)]
    match d, hd1 with
    | 1, _ => exact Arrives.silent (by simpa [hfd1, hfd2] using h)
    | 2, _ => exact Arrives.silent (by simpa [hfd1, hfd2] using h)
    | d + 3, _ => exact Arrives.silent (by rwa [if_neg (by simp)] at h)
  have r4 : Arrives (if d = 1 ∧ UInt8.ofNat n ∈ addrs then [0xE5] else [])
      (env.respond [pingWire 0xFD, pingWire 0xFD, pingWire (UInt8.ofNat n), assignWire (UInt8.ofNat m) (UInt8.ofNat n)]) := by
    have h := hd [pingWire 0xFD, pingWire 0xFD, pingWire (UInt8.ofNat n), assignWire (UInt8.ofNat m) (UInt8.ofNat n)]
    match d, hd1 with
    | 1, _ =>
      have h : Arrives (answer ([pingWire 0xFD, pingWire 0xFD] ++ [pingWire (UInt8.ofNat n)])) _ := h
      rw [ha] at h
      simpa using h
    | 2, _ => simpa [hfd1, hfd2] using h
    | 3, _ => simpa [hfd1, hfd2] using h
    | d + 4, _ =>
      rw [if_neg (by simp)] at h
      simpa using h
  have hat : atoi new = n := atoi_numeral hnew (by omega)
  unfold setAddressTool
  rw [hat]
  dsimp only
  rw [if_neg (by rw [(isPrimary_iff (n : Int)).mpr (by omega)]; decide), if_neg (by omega), init_wire k env ho hw purge [] [pingWire 0xFD, pingWire 0xFD]
    ⟨rfl, ⟨[], by simp [Chunks], r1⟩, ⟨[], by simp [Chunks], r2⟩⟩, ok_bind]
  simp only
  rw [if_neg (by decide), bus_sendPing k env ho hw purge _ n (by omega), ok_bind]
  simp only
  rw [if_neg (by decide)]
  simp only [List.cons_append, List.nil_append, r3]
  show (recvFrame (busLink k env) purge ⟨[], _⟩ junk >>= _) = _
  rw [recv_silent k env ho, ok_bind]
  simp only
  rw [if_neg (by simp), reach_wire k env ho hw purge hp old _ (UInt8.ofNat m) _ (.primary m hold hmask hm), ok_bind]
  simp only
  rw [setPrimary_wire k env ho hw purge _ (UInt8.ofNat m) n hn (.data 0x53 (UInt8.ofNat m) 0x51 [0x01, 0x7A, UInt8.ofNat n]) rfl, ok_bind]
  simp only
  rw [if_neg (by decide)]
  simp only [List.cons_append, List.nil_append]
  rw [show (Telegram.data 0x53 (UInt8.ofNat m) 0x51 [0x01, 0x7A, UInt8.ofNat n]).wire = assignWire (UInt8.ofNat m) (UInt8.ofNat n) from rfl]
  by_cases hc : d = 1 ∧ UInt8.ofNat n ∈ addrs
  · rw [if_pos hc] at r4
    obtain ⟨cs, hcs, hf, he⟩ := r4
    rw [he]
    obtain ⟨g, cs', h1, h2, h3, h4⟩ := recv_ack1 k env ho purge hp [pingWire 0xFD, pingWire 0xFD, pingWire (UInt8.ofNat n), assignWire (UInt8.ofNat m) (UInt8.ofNat n)]
      cs hcs [] hf Frame.zero
    show (recvFrame (busLink k env) purge ⟨evs cs, _⟩ Frame.zero >>= _) = _
    rw [h1, ok_bind]
    simp only
    rw [if_neg (by decide), if_neg (fun h => h h2), chunks_nil cs' h3 h4, if_pos hc, if_pos hc]
    rfl
  · rw [if_neg hc] at r4
    rw [r4.silent]
    show (recvFrame (busLink k env) purge ⟨[], _⟩ Frame.zero >>= _) = _
    rw [recv_silent k env ho, ok_bind]
    simp only
    rw [if_pos trivial, if_neg hc, if_neg hc]

end

/-! ### the secondary scan -/

/-- the last transmission was a ping, a selection or a request -/
def Usual (sent : List (List Byte)) : Prop :=
  sent = [] ∨ ∃ h w, sent = h ++ [w] ∧ ((∃ a, w = pingWire a) ∨ (∃ sel, sel.length = 8 ∧ w = selectionWire sel) ∨ w = requestWire)

section
variable (k : Kind) (env : Env) (ho : IsOpen k env) (hw : Mbus.Writable env) (purge : Int) (hp : purge ≠ PURGE_S2M)
  (answer : List (List Byte) → List Byte) (hd : Delayed 1 answer env) (hreg : Regular answer)

include hd hreg in
theorem usual_arrives (sent : List (List Byte)) (hu : Usual sent) (x : List Byte) :
    ∃ bs, Arrives bs (env.respond (sent ++ [x])) ∧ (Acknowledges bs ∨ Responds bs) := by
  rcases hu with rfl | ⟨h, w, rfl, hw⟩
  · have := hd ([] ++ [x])
    exact ⟨[], by simpa using this, .inl (.inl rfl)⟩
  · refine ⟨_, hd.last h w x, ?_⟩
    rcases hw with ⟨a, rfl⟩ | ⟨sel, hl, rfl⟩ | rfl
    · exact .inl (hreg.ping h a)
    · exact .inl (hreg.selection h sel hl)
    · exact .inr (hreg.request h)

include ho hw hp hd hreg in
/-- a selection, with the answer to the transmission before it -/
theorem select_late (sent : List (List Byte)) (hu : Usual sent) (m : List Byte) (hm : AddressMask m) :
    ∃ r, selectSecondary ((busLink k env).ops purge) ⟨[], sent⟩ m = .ok (r, ⟨[], sent ++ [(selT m).wire]⟩) ∧ (r = 0 ∨ r = 1 ∨ r = 2) := by
  obtain ⟨bs, ⟨cs, hc, hf, he⟩, hb⟩ := usual_arrives env answer hd hreg sent hu (selT m).wire
  have quiet : bs = [] → ∃ r, selectSecondary ((busLink k env).ops purge) ⟨[], sent⟩ m = .ok (r, ⟨[], sent ++ [(selT m).wire]⟩) ∧ (r = 0 ∨ r = 1 ∨ r = 2) := by
    rintro rfl
    exact ⟨_, select_silence k env ho hw purge sent m hm (by rw [he, chunks_nil cs hc hf]; rfl), .inl rfl⟩
  have noise : Garbled bs → ∃ r, selectSecondary ((busLink k env).ops purge) ⟨[], sent⟩ m = .ok (r, ⟨[], sent ++ [(selT m).wire]⟩) ∧ (r = 0 ∨ r = 1 ∨ r = 2) := by
    intro hg
    exact ⟨_, select_garbage k env ho hw purge hp sent m hm cs hc he (by rw [hf]; exact hg), .inr (.inr rfl)⟩
  rcases hb with (h | h | ⟨rest, h, _⟩) | (h | h | ⟨a, t, ht, h⟩)
  · exact quiet h
  · exact noise h
  · obtain ⟨r, h1, h2, _⟩ := select_ack k env ho hw purge hp sent m hm cs hc he rest (by rw [hf]; exact h)
    refine ⟨r, h1, ?_⟩
    rcases h2 with h2 | h2
    · exact .inr (.inl h2)
    · exact .inr (.inr h2)
  · exact quiet h
  · exact noise h
  · subst h
    obtain ⟨g, h1, h2⟩ := recv_telegram k env ho purge hp (sent ++ [(selT m).wire]) cs hc t ht.1 ht.slave hf Frame.zero
    refine ⟨0, ?_, .inl rfl⟩
    have hg : g.type ≠ TYPE_ACK := by
      obtain ⟨_, c, ci, p, rfl, _⟩ := ht
      have := h2.1
      intro h
      rw [h] at this
      split at this <;> simp [TYPE_ACK] at this
    unfold selectSecondary
    rw [if_neg (by have := hm.1; omega), bus_sendSelect k env ho hw purge sent m hm, ok_bind]
    simp only
    rw [if_neg (by decide), he]
    show (recvFrame (busLink k env) purge ⟨evs cs, _⟩ Frame.zero >>= _) = _
    rw [h1, ok_bind]
    simp only
    rw [if_neg (by decide), if_neg (by decide), if_neg hg]
    rfl


theorem usual_select (sent : List (List Byte)) (m : List Byte) (hm : AddressMask m) : Usual (sent ++ [(selT m).wire]) :=
  .inr ⟨sent, _, rfl, .inr (.inl ⟨selBytes m, selBytes_length m hm, rfl⟩)⟩

section
variable {τ : Type} (O : Ops τ) (φ : Bus → τ) (hs : Simulates ((busLink k env).ops purge) O φ)
include ho hw hp hd hreg hs

/-- after a selection the request is met by the answer to the selection, never by data -/
theorem probeSelected_late (sent : List (List Byte)) (m : List Byte) (hm : AddressMask m) :
    ∃ r, probeSelected O (φ ⟨[], sent ++ [(selT m).wire]⟩) = .ok (r, none, φ ⟨[], sent ++ [(selT m).wire] ++ [requestWire]⟩) ∧ (r = 0 ∨ r = 2) := by
  obtain ⟨cs, hc, hf, he⟩ := hd.last sent (selT m).wire requestWire
  have hb : Acknowledges cs.flatten := by rw [hf]; exact hreg.selection sent (selBytes m) (selBytes_length m hm)
  have hreq : sendRequest ((busLink k env).ops purge) ⟨[], sent ++ [(selT m).wire]⟩ 253 =
      .ok (0, ⟨env.respond (sent ++ [(selT m).wire] ++ [requestWire]), sent ++ [(selT m).wire] ++ [requestWire]⟩) :=
    bus_sendRequest k env ho hw purge (sent ++ [(selT m).wire]) 253 (by decide)
  unfold probeSelected
  rw [sendRequest_sim hs, hreq, map_ok, ok_bind, he]
  dsimp only [mapS]
  rw [if_neg (by decide), hs.recv, map_bind]
  dsimp only
  rcases hb with h | h | ⟨rest, h, _⟩
  · rw [chunks_nil cs hc h]
    rw [show ((busLink k env).ops purge).recv ⟨evs [], sent ++ [(selT m).wire] ++ [requestWire]⟩ Frame.zero = _ from recv_silent k env ho purge _ _, ok_bind]
    dsimp only
    rw [if_pos rfl]
    exact ⟨0, rfl, .inl rfl⟩
  · obtain ⟨f', cs', h1, h2⟩ := recv_garbled k env ho purge hp (sent ++ [(selT m).wire] ++ [requestWire]) cs hc h
    obtain ⟨r, h3⟩ := purge_drains k env ho purge (sent ++ [(selT m).wire] ++ [requestWire]) cs' h2
    rw [show ((busLink k env).ops purge).recv ⟨evs cs, sent ++ [(selT m).wire] ++ [requestWire]⟩ Frame.zero = _ from h1, ok_bind]
    dsimp only
    rw [if_neg (by decide), if_pos rfl, hs.purge, show ((busLink k env).ops purge).purge ⟨evs cs', sent ++ [(selT m).wire] ++ [requestWire]⟩ = _ from h3]
    exact ⟨2, rfl, .inr rfl⟩
  · obtain ⟨g, cs', h1, h2, h3, h4⟩ := recv_ack1 k env ho purge hp (sent ++ [(selT m).wire] ++ [requestWire]) cs hc rest h Frame.zero
    have hg : g.type = 1 := h2
    obtain ⟨r, h5⟩ := purge_drains k env ho purge (sent ++ [(selT m).wire] ++ [requestWire]) cs' h3
    rw [show ((busLink k env).ops purge).recv ⟨evs cs, sent ++ [(selT m).wire] ++ [requestWire]⟩ Frame.zero = _ from h1, ok_bind]
    dsimp only
    rw [if_neg (by decide), if_neg (by decide), hs.purge, show ((busLink k env).ops purge).purge ⟨evs cs', sent ++ [(selT m).wire] ++ [requestWire]⟩ = _ from h5,
      map_ok, ok_bind]
    dsimp only
    by_cases hr : r ≠ 0
    · rw [if_pos hr]; exact ⟨2, rfl, .inr rfl⟩
    · rw [if_neg hr, if_neg (by rw [hg]; decide)]; exact ⟨0, rfl, .inl rfl⟩

theorem probeLoop_late (m : List Byte) (hm : AddressMask m) (n : Nat) : ∀ (sent : List (List Byte)), Usual sent →
    ∃ r sent', probeLoop O (φ ⟨[], sent⟩) m 0 n = .ok (r, none, φ ⟨[], sent'⟩) ∧ (r = 0 ∨ r = 2) ∧ Usual sent' := by
  induction n with
  | zero => intro sent hu; exact ⟨0, sent, rfl, .inl rfl, hu⟩
  | succ n ih =>
    intro sent hu
    obtain ⟨r, h1, hr⟩ := select_late k env ho hw purge hp answer hd hreg sent hu m hm
    unfold probeLoop
    rw [selectSecondary_sim hs, h1, map_ok, ok_bind]
    dsimp only [mapS]
    rcases hr with rfl | rfl | rfl
    · rw [if_neg (by decide), if_neg (by decide)]
      exact ih _ (usual_select sent m hm)
    · rw [if_pos (by decide)]
      obtain ⟨r, h2, h3⟩ := probeSelected_late k env ho hw purge hp answer hd hreg O φ hs sent m hm
      exact ⟨r, _, h2, h3, .inr ⟨_, _, rfl, .inr (.inr rfl)⟩⟩
    · rw [if_neg (by decide), if_pos (by decide)]
      exact ⟨2, _, rfl, .inr rfl, usual_select sent m hm⟩

end

theorem printing_bus {σ : Type} (o : Ops σ) (q : List Byte × List Line) : Simulates o o.printing fun b => (b, q) := by
  refine ⟨?_, ?_, ?_⟩
  · intro s f
    show (o.send s f >>= _) = _
    cases o.send s f <;> rfl
  · intro s f
    show (o.recv s f >>= _) = _
    cases o.recv s f <;> rfl
  · intro s
    show (o.purge s >>= _) = _
    cases o.purge s <;> rfl

include ho hw hp hd hreg

theorem scanLoop_late (st : Settings) (p : Nat) (sub : Bus × List Byte × List Line → List Byte → C (Int × Bus × List Byte × List Line))
    (hsub : ∀ sent x ls m, Usual sent → AddressMask m → ∃ sent' x', sub (⟨[], sent⟩, x, ls) m = .ok (0, ⟨[], sent'⟩, x', ls) ∧ Usual sent')
    (ds : List Byte) (hds : ∀ c ∈ ds, IsHex c) : ∀ (sent : List (List Byte)) (x : List Byte) (ls : List Line) (m : List Byte), Usual sent → AddressMask m →
    ∃ sent' x', scanLoop ((busLink k env).ops purge).printing st p sub m ds (⟨[], sent⟩, x, ls) = .ok (0, ⟨[], sent'⟩, x', ls) ∧ Usual sent' := by
  induction ds with
  | nil => intro sent x ls m hu _; exact ⟨sent, x, rfl, hu⟩
  | cons c ds ih =>
    intro sent x ls m hu hm
    have ih := ih fun y hy => hds y (by simp [hy])
    have hm' := mask_set_hex m hm p c (hds c (by simp))
    obtain ⟨r, sent1, h1, hr, hu1⟩ := probeLoop_late k env ho hw purge hp answer hd hreg ((busLink k env).ops purge).printing (fun b => (b, m.set p c, ls))
      (printing_bus _ _) (m.set p c) hm' (st.maxSearchRetry + 1).toNat sent hu
    unfold scanLoop
    dsimp only
    have hprobe : probeSecondary ((busLink k env).ops purge).printing st
        (((busLink k env).ops purge).printing.progress (⟨[], sent⟩, x, ls) (m.set p c)) (m.set p c) = .ok (r, none, ⟨[], sent1⟩, m.set p c, ls) := by
      unfold probeSecondary
      rw [if_neg (by have := hm'.1; omega)]
      exact h1
    rw [hprobe, ok_bind]
    dsimp only
    rcases hr with rfl | rfl
    · rw [if_neg (by decide), if_neg (by decide), if_pos (by decide)]
      exact ih sent1 _ ls _ hu1 hm'
    · rw [if_neg (by decide), if_pos (by decide)]
      obtain ⟨sent2, x2, h2, hu2⟩ := hsub sent1 (m.set p c) ls (m.set p c) hu1 hm'
      rw [h2, ok_bind]
      exact ih sent2 _ ls _ hu2 hm'

theorem scanAt_late (st : Settings) (n : Nat) (hn : n ≤ 16) : ∀ (sent : List (List Byte)) (x : List Byte) (ls : List Line) (m : List Byte), Usual sent → AddressMask m →
    ∃ sent' x', scanAt ((busLink k env).ops purge).printing st n (⟨[], sent⟩, x, ls) m = .ok (0, ⟨[], sent'⟩, x', ls) ∧ Usual sent' := by
  induction n with
  | zero => intro sent x ls m hu _; exact ⟨sent, x, rfl, hu⟩
  | succ n ih =>
    intro sent x ls m hu hm
    have ih := ih (by omega)
    have hlen : 15 - n < m.length := by have := hm.1; omega
    unfold scanAt
    dsimp only
    rw [rd_ok hlen, ok_bind]
    by_cases hw' : m[15 - n] = 102 ∨ m[15 - n] = 70
    · rw [if_pos hw']
      exact scanLoop_late k env ho hw purge hp answer hd hreg st (15 - n) _ ih decimalDigits (by decide) sent x ls m hu hm
    · rw [if_neg hw']
      by_cases hl : 15 - n < 15
      · rw [if_pos hl]
        obtain ⟨sent1, x1, h1, hu1⟩ := ih sent x ls m hu hm
        rw [h1, ok_bind]
        exact ⟨sent1, x1, rfl, hu1⟩
      · rw [if_neg hl]
        exact scanLoop_late k env ho hw purge hp answer hd hreg st (15 - n) _ ih [m[15 - n]] (by
          intro c hc
          simp at hc
          rw [hc]
          exact hm.2 _ (List.getElem_mem _)) sent x ls m hu hm

/-- C128: when the answers come one transmission late, the secondary scan tools find no meter at all, with any number of retries. -/
theorem C128_secondary_finds_nothing (st : Settings) (m : List Byte) (hm : AddressMask m) :
    ∃ sent, scanSecondaryTool ((busLink k env).ops purge) st ⟨[], []⟩ m = .ok ⟨0, [], ⟨[], sent⟩⟩ := by
  obtain ⟨cs, hc, _, he⟩ := hd [pingWire 0xFD]
  obtain ⟨ds, hc', _, he'⟩ := hd [pingWire 0xFD, pingWire 0xFF]
  obtain ⟨sent, x, h1, _⟩ := scanAt_late k env ho hw purge hp answer hd hreg st 16 (by omega) [pingWire 0xFD, pingWire 0xFF] [] [] m
    (.inr ⟨[pingWire 0xFD], _, rfl, .inl ⟨0xFF, rfl⟩⟩) hm
  refine ⟨sent, ?_⟩
  unfold scanSecondaryTool
  rw [if_neg (by rw [(isSecondary_iff m).mpr hm]; decide), initAll_wire k env ho hw purge [] [pingWire 0xFD, pingWire 0xFF]
    ⟨rfl, ⟨cs, hc, he⟩, ⟨ds, hc', he'⟩⟩, ok_bind]
  dsimp only
  rw [if_neg (by decide)]
  have h2 : scanRange ((busLink k env).ops purge).printing st (⟨[], [pingWire 0xFD, pingWire 0xFF]⟩, [], []) 0 m = .ok (0, ⟨[], sent⟩, x, []) := by
    unfold scanRange
    rw [if_neg (by have := hm.1; omega), if_neg (by decide)]
    exact h1
  rw [h2, ok_bind]

end

/-! ### a concrete slow bus: one meter, with address 5 -/

/-- its data: a variable data response with a fixed header and nothing else -/
def lateData : Spec.Telegram := .data 0x08 5 0x72 [0x78, 0x56, 0x34, 0x12, 0x24, 0x40, 1, 7, 0x55, 0, 0, 0]

/-- the meter acknowledges pings of address 5 and all selections, and responds to requests of the selected meter -/
def lateAnswer (h : List (List Byte)) : List Byte :=
  match h.getLast? with
  | none => []
  | some w => if w = pingWire 5 then [0xE5] else if w = requestWire then lateData.wire else if w.length = 17 then [0xE5] else []

/-- every answer of the meter comes `d` transmissions late -/
def lateBus (d : Nat) : Env :=
  ⟨fun sent => if d < sent.length then (if lateAnswer (sent.take (sent.length - d)) = [] then [] else evs [lateAnswer (sent.take (sent.length - d))]) else [],
    fun _ => 0, fun _ n => n, true⟩

theorem lateBus_delayed (d : Nat) : Delayed d lateAnswer (lateBus d) := by
  intro sent
  show Arrives _ (if d < sent.length then _ else _)
  split
  · split
    · next h => rw [h]; exact ⟨[], by simp [Chunks], rfl, rfl⟩
    · next h => exact ⟨[lateAnswer (sent.take (sent.length - d))], by simp [Chunks, h], by simp, rfl⟩
  · exact ⟨[], by simp [Chunks], rfl, rfl⟩

theorem lateAnswer_pings : AcksPings [5] lateAnswer := by
  intro h a
  simp only [lateAnswer, List.getLast?_append, List.getLast?_singleton, Option.some_or]
  have e : pingWire a = pingWire 5 ↔ a = 5 := ⟨fun h => by
    have := congrArg (fun l => l[2]?) h
    simpa [pingWire, Spec.Telegram.wire] using this, fun h => by rw [h]⟩
  have e2 : pingWire a ≠ requestWire := by
    intro h
    have := congrArg (fun l => l[1]?) h
    simp [pingWire, requestWire, Spec.Telegram.wire] at this
  have e3 : (pingWire a).length ≠ 17 := by simp [pingWire, Spec.Telegram.wire]
  simp [e, e2, e3]

theorem lateAnswer_regular : Regular lateAnswer := by
  constructor
  · intro h a
    rw [lateAnswer_pings h a]
    split
    · exact .inr (.inr ⟨[], rfl, .inl rfl⟩)
    · exact .inl rfl
  · intro h sel hl
    have e1 : (selectionWire sel).length = 17 := by simp [selectionWire, Spec.Telegram.wire, hl]
    have e2 : selectionWire sel ≠ pingWire 5 := by intro h; rw [h] at e1; exact absurd e1 (by decide)
    have e3 : selectionWire sel ≠ requestWire := by intro h; rw [h] at e1; exact absurd e1 (by decide)
    refine .inr (.inr ⟨[], ?_, .inl rfl⟩)
    simp [lateAnswer, e1, e2, e3]
  · intro h
    have e2 : requestWire ≠ pingWire 5 := by decide
    refine .inr (.inr ⟨5, lateData, ⟨by decide, 0x08, 0x72, _, rfl, by decide⟩, ?_⟩)
    simp [lateAnswer, e2]

theorem lateBus_open (k : Kind) (d : Nat) : IsOpen k (lateBus d) ∧ Mbus.Writable (lateBus d) := ⟨by cases k <;> simp [IsOpen, lateBus], fun _ _ => rfl⟩

/-- the scan reports address 7 for the meter with address 5 when the answers come two transmissions late, and nothing else -/
example (k : Kind) : ∃ ls sent, scanTool ((busLink k (lateBus 2)).ops PURGE_M2S) Settings.default ⟨[], []⟩ 0 = .ok ⟨0, ls, ⟨[], sent⟩⟩ ∧
    ∀ l, l ∈ ls ↔ l = .found 7 := by
  obtain ⟨ls, h1, _, h2⟩ := C128_shifted k (lateBus 2) (lateBus_open k 2).1 (lateBus_open k 2).2 PURGE_M2S (by decide) Settings.default 2 [5] lateAnswer
    (lateBus_delayed 2) lateAnswer_pings
  refine ⟨ls, _, h1, fun l => ?_⟩
  rw [h2]
  simp

/-- ... and with retries addresses 5 and 6 when they come one transmission late -/
example (k : Kind) : ∃ ls sent, scanTool ((busLink k (lateBus 1)).ops PURGE_M2S) Settings.default ⟨[], []⟩ 3 = .ok ⟨0, ls, ⟨[], sent⟩⟩ ∧
    ∀ l, l ∈ ls ↔ l = .found 5 ∨ l = .found 6 := by
  obtain ⟨ls, sent, h1, _, h2⟩ := C128_ghosts k (lateBus 1) (lateBus_open k 1).1 (lateBus_open k 1).2 PURGE_M2S (by decide) Settings.default 3 (by decide) [5] lateAnswer
    (lateBus_delayed 1) lateAnswer_pings
  refine ⟨ls, _, h1, fun l => ?_⟩
  rw [h2]
  constructor
  · rintro ⟨b, hb, i, hi, _, rfl⟩
    simp at hb
    subst hb
    rcases hi with rfl | rfl
    · exact .inl rfl
    · exact .inr rfl
  · rintro (rfl | rfl)
    · exact ⟨5, by simp, 5, .inl rfl, by omega, rfl⟩
    · exact ⟨5, by simp, 6, .inr rfl, by omega, rfl⟩

/-- address 5 is given to a second meter, and the tool prints that this succeeded -/
example (k : Kind) (junk : Frame) : setAddressTool junk ((busLink k (lateBus 1)).ops PURGE_M2S) ⟨[], []⟩ (cs! "9") (cs! "5") =
    .ok ⟨0, [.addressSet 5], ⟨[], [pingWire 0xFD, pingWire 0xFD, pingWire 5, assignWire 9 5]⟩⟩ := by
  have h := C128_set_address k (lateBus 1) (lateBus_open k 1).1 (lateBus_open k 1).2 PURGE_M2S (by decide) junk (cs! "9") (cs! "5") 9 5 (.digit 57 (by decide))
    (fun h => absurd h.1 (by decide)) (by decide) (.digit 53 (by decide)) (by decide) 1 (by decide) [5] lateAnswer (lateBus_delayed 1) lateAnswer_pings (by decide)
  rw [if_pos ⟨rfl, by decide⟩, if_pos ⟨rfl, by decide⟩] at h
  exact h

/-- the scan of all addresses does not find the meter -/
example (k : Kind) : ∃ sent, scanSecondaryTool ((busLink k (lateBus 1)).ops PURGE_M2S) Settings.default ⟨[], []⟩ allWild = .ok ⟨0, [], ⟨[], sent⟩⟩ :=
  C128_secondary_finds_nothing k (lateBus 1) (lateBus_open k 1).1 (lateBus_open k 1).2 PURGE_M2S (by decide) lateAnswer (lateBus_delayed 1) lateAnswer_regular
    Settings.default allWild (idMask_address _ allWild_mask)

end Mbus
