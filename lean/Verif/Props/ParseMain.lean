import Verif.Model.ParseMain
import Verif.Spec.ParseMain
import Verif.Props.ParseTools
import Verif.Props.Messages
import Verif.Props.Debug
/-
C120: the programs `mbus_parse` and `mbus_parse_hex` from the command line to standard output, standard error and exit status.
-/
namespace Mbus
open Spec

/-! ### lemmas -/

theorem code_lacks (bs : List Byte) (h : 0 < code bs) : ∃ n : Nat, code bs = n ∧ Lacks bs n := by
  unfold code at h ⊢
  match bs, h with
  | d0 :: r, h =>
    simp only at h ⊢
    split at h
    · omega
    rename_i h0
    rw [if_neg h0]
    split at h
    · rename_i h1
      rw [if_pos h1]
      subst h1
      split at h
      · split at h <;> omega
      · split at h
        · rename_i hlt
          refine ⟨4 - r.length, ?_, .short r hlt⟩
          split <;> omega
        · omega
    rename_i h1
    rw [if_neg h1]
    split at h
    · rename_i h2
      rw [if_pos h2]
      subst h2
      match r, h with
      | [], _ => exact ⟨2, rfl, .start [] (by decide)⟩
      | [x], _ => exact ⟨1, rfl, .start [x] (by simp)⟩
      | l1 :: l2 :: q, h =>
        simp only at h ⊢
        split at h
        · omega
        rename_i h3
        rw [if_neg h3]
        split at h
        · rename_i h4
          rw [if_pos h4]
          have e : l1 = l2 := Classical.not_not.mp fun k => h3 (.inr k)
          subst e
          refine ⟨_, rfl, ?_⟩
          rw [Nat.add_comm 3]
          exact .length l1 q (by omega) (by omega)
        · split at h
          · omega
          · split at h <;> omega
    · omega
  | [], h => simp at h

theorem broken_storable {q t : List Byte} (h : Broken q t) : Storable t := by
  unfold Storable
  cases h
  case noVif ht => revert ht; revert t; decide
  case noLength ht => revert ht; revert t; decide
  all_goals decide

theorem notParsed_storable {c ci : Byte} {p t : List Byte} (h : NotParsed c ci p t) : Storable t := by
  cases h
  case kind => have := hex2l_storable ci; exact ⟨by simp only [List.mem_append, this]; decide, by rw [List.length_append, this.2]; decide⟩
  case record h => exact broken_storable h
  all_goals (unfold Storable; decide)

theorem say_read (e t : List Byte) (he : e.length = 512) (ht : Storable t) : ∃ e', say e (some t) = .ok e' ∧ e'.length = 512 ∧ errorStr e' = .ok t :=
  (C119_read_back e he).2 t ht.1 ht.2

theorem errorStrInit_length : errorStrInit.length = 512 := by unfold errorStrInit; exact List.length_replicate
theorem errorStrInit_read : errorStr errorStrInit = .ok [] := by decide +kernel

/-- the result of `mbus_frame_data_parse` and what is in `error_str` afterwards -/
theorem dataParse_said (g : Frame) (hs : g.dataSize ≤ 252) (rc : Int) (x : FrameData) (m : Said) (h : frameDataParseE g FrameData.new = .ok (rc, x, m)) :
    frameDataParse g FrameData.new = .ok (rc, x) ∧ ((rc = 0 ∧ m = none) ∨ (rc = -1 ∧ ∃ t, m = some t ∧ NotParsed g.control g.ci (payload g) t)) := by
  have e : frameDataParse g FrameData.new = .ok (rc, x) := by rw [← frameDataParseE_mute, h, silent2_ok]
  obtain ⟨m', k1, k2⟩ := C119_data_parse g FrameData.new hs rc x e
  rw [h] at k1
  cases k1
  exact ⟨e, k2⟩

/-- the kind of data after a successful parse -/
theorem dataParse_kind (f : Frame) (x y : FrameData) (h : frameDataParse f x = .ok (0, y)) :
    f.control &&& 0x40 = 0 ∧ (f.ci = 0x70 ∧ y.type = DATA_ERROR ∨ f.ci = 0x73 ∧ y.type = DATA_FIXED ∨ f.ci = 0x72 ∧ y.type = DATA_VARIABLE) := by
  unfold frameDataParse at h
  split at h
  · rename_i hd
    refine ⟨hd, ?_⟩
    split at h
    · rename_i hc
      simp only at h
      split at h
      · obtain ⟨e, _, h⟩ := bind_eq_ok.mp h
        cases h
        exact .inl ⟨hc, rfl⟩
      · cases h
        exact .inl ⟨hc, rfl⟩
    split at h
    · rename_i hc
      split at h
      · cases h
      · obtain ⟨⟨_, _⟩, _, h⟩ := bind_eq_ok.mp h
        simp only [Except.ok.injEq, Prod.mk.injEq] at h
        obtain ⟨_, rfl⟩ := h
        exact .inr (.inl ⟨hc, rfl⟩)
    split at h
    · rename_i hc
      split at h
      · cases h
      · obtain ⟨⟨_, _⟩, _, h⟩ := bind_eq_ok.mp h
        simp only [Except.ok.injEq, Prod.mk.injEq] at h
        obtain ⟨_, rfl⟩ := h
        exact .inr (.inr ⟨hc, rfl⟩)
    · cases h
  · cases h

/-- there is an XML text, except for an application error with `-n` -/
theorem toolXml_none (junk0 : Nat → Byte) (junk : Nat → Nat → Byte) (n : Bool) (f : Frame) (x y : FrameData) (h : frameDataParse f x = .ok (0, y))
    (hn : toolXml junk0 junk n y = .ok none) : n = true ∧ f.ci = 0x70 ∧ f.control &&& 0x40 = 0 := by
  obtain ⟨hd, hk⟩ := dataParse_kind f x y h
  unfold toolXml at hn
  cases n with
  | false =>
    rw [if_neg (by decide)] at hn
    unfold frameDataXml at hn
    rcases hk with ⟨_, k⟩ | ⟨_, k⟩ | ⟨_, k⟩
    · rw [if_pos k] at hn
      obtain ⟨m, _, hn⟩ := bind_eq_ok.mp hn
      cases hn
    · rw [if_neg (by rw [k]; decide), if_pos k] at hn
      obtain ⟨m, _, hn⟩ := bind_eq_ok.mp hn
      cases hn
    · rw [if_neg (by rw [k]; decide), if_neg (by rw [k]; decide), if_pos k] at hn
      obtain ⟨m, _, hn⟩ := bind_eq_ok.mp hn
      cases hn
  | true =>
    rw [if_pos rfl] at hn
    unfold frameDataXmlNormalized at hn
    rcases hk with ⟨c, _⟩ | ⟨_, k⟩ | ⟨_, k⟩
    · exact ⟨rfl, c, hd⟩
    · rw [if_pos k] at hn
      obtain ⟨m, _, hn⟩ := bind_eq_ok.mp hn
      cases hn
    · rw [if_neg (by rw [k]; decide), if_pos k] at hn
      obtain ⟨m, _, hn⟩ := bind_eq_ok.mp hn
      cases hn

/-- parsing one telegram, starting with an empty message -/
theorem parsedE (bs : List Byte) : ∃ g m, mbusParseE Frame.zero bs bs.length = .ok (code bs, g, m) ∧ mbusParse Frame.zero bs bs.length = .ok (code bs, g) ∧
    (0 ≤ code bs → m = none) ∧ (code bs < 0 → ∃ t, m = some t ∧ Wrong bs t) := by
  obtain ⟨r, g, m, h1, h2, h3, h4⟩ := C119_parse Frame.zero bs
  obtain ⟨g', k1, _⟩ := parse_code Frame.zero bs
  rw [k1] at h2
  cases h2
  refine ⟨_, m, h1, k1, fun h => ?_, fun h => ?_⟩
  · cases m with
    | none => rfl
    | some t => exact absurd (h3.mpr (by simp)) (by omega)
  · cases m with
    | none => exact absurd rfl (h3.mp h)
    | some t => exact ⟨t, rfl, (h4 t).mp rfl⟩

/-- a successful parse: which telegram the frame object carries -/
theorem parsed_carries (bs : List Byte) (g : Frame) (h0 : code bs = 0) (h : mbusParse Frame.zero bs bs.length = .ok (code bs, g)) :
    ∃ t : Spec.Telegram, t.Legal ∧ (bs = t.wire ∨ t = .ack ∧ bs.head? = some 0xE5) ∧ Carries g t ∧ StartStop g t ∧ g.dataSize ≤ 252 ∧
      (g.control &&& 0x40 = 0 → g.ci = (appLayer t).2.1) ∧
      ∀ msg, NotParsed g.control g.ci (payload g) msg → NotParsed (appLayer t).1 (appLayer t).2.1 (appLayer t).2.2 msg := by
  obtain ⟨g', k1, k2⟩ := parse_code Frame.zero bs
  rw [h] at k1
  cases k1
  rcases k2 h0 with ⟨a, b, c⟩ | ⟨t, a, b, c, d, e⟩
  · match bs, a with
    | d0 :: r, a =>
      simp only [List.head?_cons, Option.some.injEq] at a
      subst a
      have hg : g = { Frame.zero with start1 := 0xE5, type := TYPE_ACK } := by
        have : mbusParse Frame.zero (0xE5 :: r) (0xE5 :: r).length = .ok (0, { Frame.zero with start1 := 0xE5, type := TYPE_ACK }) := by
          unfold mbusParse
          rw [if_neg (by simp), rd_ok (by simp), ok_bind, if_pos (by rfl)]
          rfl
        rw [this] at h
        injection h with h
        injection h with _ h
        exact h.symm
      subst hg
      refine ⟨.ack, trivial, .inr ⟨rfl, rfl⟩, b, c, by decide, fun _ => rfl, fun msg hm => ?_⟩
      have : payload { Frame.zero with start1 := 0xE5, type := TYPE_ACK } = [] := by decide +kernel
      rw [this] at hm
      exact hm
  · obtain ⟨g', k1, k3, k4⟩ := parsed_telegram Frame.zero t b a
    rw [← c, h] at k1
    injection k1 with k1
    injection k1 with _ k1
    subst k1
    cases t with
    | ack => exact absurd rfl a
    | short cc aa =>
      have hc : ∀ c ∈ shortCodes, c &&& 0x40 ≠ (0 : Byte) := by decide
      have hd := hc cc b
      refine ⟨_, b, .inl c, k3, k4, parseKeeps_size _ _ _ _ _ (by decide) h, fun k => absurd (by rw [← k3.2.1]; exact k) hd, fun msg hm => ?_⟩
      rw [k3.2.1] at hm
      cases hm
      case direction k => exact .direction k
      all_goals contradiction
    | data cc aa ci p =>
      obtain ⟨_, h2, _, h4, h5, h6⟩ := k3
      refine ⟨_, b, .inl c, ⟨by assumption, h2, by assumption, h4, h5, h6⟩, k4, by rw [h5]; exact b.2, fun _ => h4, fun msg hm => ?_⟩
      unfold payload at hm
      rw [h2, h4, h6] at hm
      exact hm

/-! ### the command line -/

theorem parseArgs_operands (n : Bool) (file : List Byte) : parseArgs (operands n file) = some (n, file) := by
  cases n <;> rfl

theorem parseArgs_none (args : List (List Byte)) (h : ∀ n file, args ≠ operands n file) : parseArgs args = none := by
  match args with
  | [] => rfl
  | [f] => exact absurd rfl (h false f)
  | [n, f] =>
    by_cases hn : n = cs! "-n"
    · exact absurd (by rw [hn]; rfl) (h true f)
    · exact if_neg hn
  | _ :: _ :: _ :: _ => rfl

/-- C120: anything but a file name, or `-n` and a file name, gives the usage and exit status 1; no file is read. -/
theorem C120_usage (uninit : Buf 4096) (dump : Buf 256) (junk0 : Nat → Byte) (junk : Nat → Nat → Byte) (disk : List Byte → Disk)
    (self : List Byte) (args : List (List Byte)) (h : ∀ n file, args ≠ operands n file) :
    parseHexMain uninit dump junk0 junk disk self args =
      .ok ⟨1, [], cs! "usage: " ++ self ++ cs! " [-n] hex-file\n    optional flag -n for normalized values\n"⟩ ∧
    parseMain dump junk0 junk disk self args =
      .ok ⟨1, [], cs! "usage: " ++ self ++ cs! " [-n] binary-file\n    optional flag -n for normalized values\n"⟩ := by
  unfold parseHexMain parseMain
  rw [parseArgs_none args h]
  constructor <;> simp [parseUsage]

/-- C120: a file that cannot be opened or read is named in the message; exit status 1. -/
theorem C120_no_file (uninit : Buf 4096) (dump : Buf 256) (junk0 : Nat → Byte) (junk : Nat → Nat → Byte) (disk : List Byte → Disk)
    (self file : List Byte) (n : Bool) (p : Printed)
    (h : disk file = .unopenable ∧ p = ⟨1, [], self ++ cs! ": failed to open '" ++ file ++ cs! "'\n"⟩ ∨
         disk file = .unreadable ∧ p = ⟨1, [], self ++ cs! ": failed to read '" ++ file ++ cs! "'\n"⟩) :
    parseHexMain uninit dump junk0 junk disk self (operands n file) = .ok p ∧ parseMain dump junk0 junk disk self (operands n file) = .ok p := by
  unfold parseHexMain parseMain
  rw [parseArgs_operands]
  rcases h with ⟨h, rfl⟩ | ⟨h, rfl⟩ <;> simp [parseOpen, h]

example : (∀ n file, [cs! "-n", cs! "a", cs! "b"] ≠ operands n file) ∧ (∀ n file, [cs! "-x", cs! "a"] ≠ operands n file) := by
  constructor <;> intro n file <;> cases n <;> simp [operands]

/-! ### mbus_parse_hex -/

/-- what follows when the telegram and its data are accepted -/
theorem parseHexBody_ok (uninit : Buf 4096) (dump : Buf 256) (junk0 : Nat → Byte) (junk : Nat → Nat → Byte) (n : Bool) (file bs : List Byte)
    (hx : HexText file bs) (hf : file.length ≤ 4096) :
    ∃ g m, mbusParseE Frame.zero bs bs.length = .ok (code bs, g, m) ∧ mbusParse Frame.zero bs bs.length = .ok (code bs, g) ∧
    (0 ≤ code bs → m = none) ∧ (code bs < 0 → ∃ t, m = some t ∧ Wrong bs t) ∧
    parseHexBody uninit dump junk0 junk n file = (do
      let e ← say errorStrInit m
      if code bs < 0 then do
        let t ← errorStr e
        .ok ⟨1, [], cs! "mbus_parse: " ++ t ++ [10]⟩
      else if code bs > 0 then .ok ⟨1, [], cs! "mbus_parse: need " ++ fmtInt (code bs) ++ cs! " more bytes\n"⟩
      else do
        let (rc, x, m) ← frameDataParseE g FrameData.new
        let e ← say e m
        if rc ≠ 0 then do
          let (_, out, _) ← framePrint dump [g]
          let t ← errorStr e
          .ok ⟨1, out, cs! "mbus_frame_data_parse: " ++ t ++ [10]⟩
        else do
          let m ← toolXml junk0 junk n x
          parseShow [] e m) := by
  obtain ⟨d, h1, h2⟩ := rawRead_text uninit file bs hx hf
  obtain ⟨g, m, k1, k2, k3, k4⟩ := parsedE bs
  have hlen : bs.length ≤ d.length := by
    have := congrArg List.length h2
    simp at this
    omega
  refine ⟨g, m, k1, k2, k3, k4, ?_⟩
  unfold parseHexBody
  rw [h1, ok_bind]
  simp only
  rw [parseE_take _ _ _ hlen, h2, k1, ok_bind]

/-- C120 (`mbus_parse_hex`): on every file that is a hexadecimal text, whatever is not shown is explained on standard error: bytes that are no
telegram by the message that names their first defect, an incomplete telegram by the number of bytes it lacks, data that are no proper
response by the message that says why (behind the dump of the telegram).  Otherwise the document is printed, the exit status is 0, and the
program writes nothing on standard error; but with `-n` there is no document for an application error. -/
theorem C120_hex (uninit : Buf 4096) (dump : Buf 256) (junk0 : Nat → Byte) (junk : Nat → Nat → Byte) (disk : List Byte → Disk)
    (self name : List Byte) (n : Bool) (file bs : List Byte) (hd : disk name = .content file) (hx : HexText file bs) (hf : file.length ≤ 4096)
    (r : Printed) (h : parseHexMain uninit dump junk0 junk disk self (operands n name) = .ok r) :
    (∃ t, Wrong bs t ∧ r = ⟨1, [], cs! "mbus_parse: " ++ t ++ [10]⟩) ∨
    (∃ k : Nat, Lacks bs k ∧ r = ⟨1, [], cs! "mbus_parse: need " ++ fmtInt k ++ cs! " more bytes\n"⟩) ∨
    ∃ t : Spec.Telegram, t.Legal ∧ (bs = t.wire ∨ t = .ack ∧ bs.head? = some 0xE5) ∧
      ((∃ msg, NotParsed (appLayer t).1 (appLayer t).2.1 (appLayer t).2.2 msg ∧
          r = ⟨1, telegramDump t ++ [10], cs! "mbus_frame_data_parse: " ++ msg ++ [10]⟩) ∨
       (∃ g x m, Carries g t ∧ frameDataParse g FrameData.new = .ok (0, x) ∧ toolXml junk0 junk n x = .ok (some m) ∧ cstr m = .ok r.out ∧
          r.code = 0 ∧ r.err = []) ∨
       (n = true ∧ (appLayer t).2.1 = 0x70 ∧ r = ⟨1, [], cs! "Failed to generate XML representation of MBUS frame: \n"⟩)) := by
  unfold parseHexMain at h
  rw [parseArgs_operands] at h
  simp only [parseOpen, hd] at h
  obtain ⟨g, m, k1, k2, k3, k4, k5⟩ := parseHexBody_ok uninit dump junk0 junk n file bs hx hf
  rw [k5] at h
  by_cases hneg : code bs < 0
  · obtain ⟨t, rfl, ht⟩ := k4 hneg
    obtain ⟨e', s1, _, s3⟩ := say_read errorStrInit t errorStrInit_length (wrong_storable ht)
    rw [s1, ok_bind, if_pos hneg, s3, ok_bind] at h
    cases h
    exact .inl ⟨t, ht, rfl⟩
  rw [k3 (by omega), (C119_read_back errorStrInit errorStrInit_length).1, ok_bind] at h
  rw [if_neg hneg] at h
  by_cases hpos : code bs > 0
  · obtain ⟨k, hk, hl⟩ := code_lacks bs hpos
    rw [if_pos hpos, hk] at h
    cases h
    exact .inr (.inl ⟨k, hl, rfl⟩)
  rw [if_neg hpos] at h
  have h0 : code bs = 0 := by omega
  obtain ⟨t, hl, hw, hc, hs, hz, hci, hnp⟩ := parsed_carries bs g h0 k2
  refine .inr (.inr ⟨t, hl, hw, ?_⟩)
  obtain ⟨⟨rc, x, m⟩, e1, h⟩ := bind_eq_ok.mp h
  obtain ⟨e2, e3⟩ := dataParse_said g hz rc x m e1
  rcases e3 with ⟨rfl, rfl⟩ | ⟨rfl, msg, rfl, hm⟩
  · simp only [say, ok_bind, ne_eq, not_true, if_false] at h
    obtain ⟨o, e4, h⟩ := bind_eq_ok.mp h
    cases o with
    | some m =>
      obtain ⟨tt, e5, h⟩ := bind_eq_ok.mp h
      cases h
      exact .inr (.inl ⟨g, x, m, hc, e2, e4, e5, rfl, rfl⟩)
    | none =>
      unfold parseShow at h
      rw [errorStrInit_read, ok_bind] at h
      cases h
      obtain ⟨q1, q2, q3⟩ := toolXml_none junk0 junk n g _ x e2 e4
      exact .inr (.inr ⟨q1, by rw [← hci q3]; exact q2, rfl⟩)
  · obtain ⟨e', s1, _, s3⟩ := say_read errorStrInit msg errorStrInit_length (notParsed_storable hm)
    simp only [s1, ok_bind] at h
    rw [if_pos (by decide)] at h
    obtain ⟨fs', p1⟩ := framePrint_dump dump [g] [t] (by simp) (.cons ⟨hl, hc, hs⟩ .nil)
    rw [p1] at h
    simp only [ok_bind, s3] at h
    cases h
    exact .inl ⟨msg, hnp msg hm, by simp [unlines]⟩

/-- C120 (`mbus_parse_hex`, records whose texts are not too long, as in C98): a response telegram with variable-length data: the document on
standard output, nothing on standard error, exit status 0. -/
theorem C120_hex_document (uninit : Buf 4096) (dump : Buf 256) (junk0 : Nat → Byte) (junk : Nat → Nat → Byte) (disk : List Byte → Disk)
    (self fname : List Byte) (file : List Byte) (hd : disk fname = .content file)
    (c a : Byte) (p : List Byte) (hl : Spec.Telegram.Legal (.data c a 0x72 p)) (hx : HexText file (Spec.Telegram.data c a 0x72 p).wire)
    (hf : file.length ≤ 4096) (hdir : c &&& 0x40 = 0) (h12 : 12 ≤ p.length)
    (h : VarHeader) (hh : HeaderIs h p) (rs : List Rec) (ht : Tiles (p.drop 12) rs) (units : List (List Byte)) (hu : units.length = rs.length)
    (hs : ∀ it ∈ (rs.map mkRec).zip (units.map (·, none)), Showable it) :
    ∃ name, productName h = .ok name ∧ parseHexMain uninit dump junk0 junk disk self [fname] =
      .ok ⟨0, document (slaveGroup h name (mediumLookup h.medium) :: recordGroups none 0 ((rs.map mkRec).zip (units.map (·, none)))), []⟩ := by
  obtain ⟨g0, h2, h3, _⟩ := parsed_telegram Frame.zero _ hl (by simp)
  obtain ⟨name, x, m, e1, e2, e3, e4⟩ := toolXml_document junk0 junk g0 c a p h3 hdir h12 hl.2 h hh rs ht units hu hs
  refine ⟨name, e1, ?_⟩
  obtain ⟨g, m', k1, k2, k3, k4, k5⟩ := parseHexBody_ok uninit dump junk0 junk false file _ hx hf
  have h0 : code (Spec.Telegram.data c a 0x72 p).wire = 0 := code_wire _ hl
  rw [h0, h2] at k2
  cases k2
  show parseHexMain uninit dump junk0 junk disk self (operands false fname) = _
  unfold parseHexMain
  rw [parseArgs_operands]
  simp only [parseOpen, hd]
  rw [k5, k3 (by omega), h0]
  obtain ⟨m2, q1, q2⟩ := C119_data_parse g0 FrameData.new (by rw [h3.2.2.2.2.1]; exact hl.2) 0 x e2
  rcases q2 with ⟨_, rfl⟩ | ⟨q, _⟩
  · simp [say, ok_bind, q1, e3, parseShow, e4]
  · exact absurd q (by decide)

/-- C120 is violated by `mbus_parse_hex -n`: an application error of the meter (CI 0x70), which the program shows without `-n`, ends it with
exit status 1 and an empty message. -/
theorem C120_error_violation (uninit : Buf 4096) (dump : Buf 256) (junk0 : Nat → Byte) (junk : Nat → Nat → Byte) (disk : List Byte → Disk)
    (self name file : List Byte) (hd : disk name = .content file) (hf : file.length ≤ 4096)
    (c a b : Byte) (hc : c ∈ dataCodes) (hdir : c &&& 0x40 = 0) (hx : HexText file (Spec.Telegram.data c a 0x70 [b]).wire) :
    parseHexMain uninit dump junk0 junk disk self [cs! "-n", name] =
      .ok ⟨1, [], cs! "Failed to generate XML representation of MBUS frame: \n"⟩ := by
  have hl : Spec.Telegram.Legal (.data c a 0x70 [b]) := ⟨hc, by simp⟩
  obtain ⟨g0, h2, h3, _⟩ := parsed_telegram Frame.zero _ hl (by simp)
  obtain ⟨g, m', k1, k2, k3, k4, k5⟩ := parseHexBody_ok uninit dump junk0 junk true file _ hx hf
  have h0 : code (Spec.Telegram.data c a 0x70 [b]).wire = 0 := code_wire _ hl
  rw [h0, h2] at k2
  cases k2
  show parseHexMain uninit dump junk0 junk disk self (operands true name) = _
  unfold parseHexMain
  rw [parseArgs_operands]
  simp only [parseOpen, hd]
  rw [k5, k3 (by omega), h0]
  have e := frameDataParse_error g0 FrameData.new (by rw [h3.2.1]; exact hdir) h3.2.2.2.1
  obtain ⟨m2, q1, q2⟩ := C119_data_parse g0 FrameData.new (by rw [h3.2.2.2.2.1]; exact hl.2) _ _ e
  rcases q2 with ⟨_, rfl⟩ | ⟨q, _⟩
  · simp [say, ok_bind, q1, toolXml, frameDataXmlNormalized, parseShow, errorStrInit_read, DATA_ERROR, DATA_FIXED, DATA_VARIABLE]
  · exact absurd q (by decide)

/-! ### mbus_parse -/

/-- C120 (`mbus_parse`, on a file that is a telegram): the dump of the telegram, and behind it the document (exit status 0, nothing on standard
error) - or, if the data are no proper response or there is no document for them, exit status 1 and a message.
Missing: what is not a telegram (see C120_checksum_violation and C120_start_violation), and that refused data are not shown
(C98_binary_violation). -/
theorem C120_binary_partial (dump : Buf 256) (junk0 : Nat → Byte) (junk : Nat → Nat → Byte) (disk : List Byte → Disk)
    (self name : List Byte) (n : Bool) (t : Spec.Telegram) (hl : t.Legal) (hd : disk name = .content t.wire)
    (r : Printed) (h : parseMain dump junk0 junk disk self (operands n name) = .ok r) :
    ∃ (g : Frame) (rc : Int) (x : FrameData), (Carries g t ∧ frameDataParse g FrameData.new = .ok (rc, x)) ∧
      ((∃ m text, toolXml junk0 junk n x = .ok (some m) ∧ cstr m = .ok text ∧ r = ⟨0, telegramDump t ++ [10] ++ text, []⟩) ∨
       (∃ msg, toolXml junk0 junk n x = .ok none ∧
          r = ⟨1, telegramDump t ++ [10], cs! "Failed to generate XML representation of MBUS frame: " ++ msg ++ [10]⟩ ∧
          (rc = -1 ∧ NotParsed (appLayer t).1 (appLayer t).2.1 (appLayer t).2.2 msg ∨
           rc = 0 ∧ n = true ∧ (appLayer t).2.1 = 0x70 ∧ msg = []))) := by
  unfold parseMain at h
  rw [parseArgs_operands] at h
  simp only [parseOpen, hd] at h
  unfold parseBody at h
  have hlen : t.wire.length ≤ 261 := by
    cases t with
    | ack => decide
    | short c a => simp [Spec.Telegram.wire]
    | data c a ci p => have := hl.2; simp [Spec.Telegram.wire]; omega
  have h0 : code t.wire = 0 := code_wire t hl
  obtain ⟨g, m, k1, k2, k3, k4⟩ := parsedE t.wire
  rw [List.take_of_length_le (by omega), Nat.min_eq_left (by omega), parseE_take _ _ _ (by simp), List.take_left' rfl, k1, ok_bind] at h
  simp only at h
  rw [k3 (by omega), (C119_read_back errorStrInit errorStrInit_length).1, ok_bind] at h
  obtain ⟨t', hl', hw, hc, hs, hz, hci, hnp⟩ := parsed_carries t.wire g h0 k2
  have : t' = t := by
    rcases hw with hw | ⟨rfl, hw⟩
    · exact (wire_inj _ _ hw).symm
    · cases t with
      | ack => rfl
      | short c a => exact absurd hw (wire_head_ne _ (by simp))
      | data c a ci p => exact absurd hw (wire_head_ne _ (by simp))
  subst this
  obtain ⟨⟨rc, x, m⟩, e1, h⟩ := bind_eq_ok.mp h
  obtain ⟨e2, e3⟩ := dataParse_said g hz rc x m e1
  refine ⟨g, rc, x, ⟨hc, e2⟩, ?_⟩
  obtain ⟨fs', p1⟩ := framePrint_dump dump [g] [t'] (by simp) (.cons ⟨hl, hc, hs⟩ .nil)
  have hout : unlines ([t'].map telegramDump) = telegramDump t' ++ [10] := by simp [unlines]
  rw [hout] at p1
  rcases e3 with ⟨rfl, rfl⟩ | ⟨rfl, msg, rfl, hm⟩
  · simp only [say, ok_bind, p1] at h
    obtain ⟨o, e4, h⟩ := bind_eq_ok.mp h
    cases o with
    | some m =>
      obtain ⟨tt, e5, h⟩ := bind_eq_ok.mp h
      cases h
      exact .inl ⟨m, tt, e4, e5, rfl⟩
    | none =>
      unfold parseShow at h
      rw [errorStrInit_read, ok_bind] at h
      cases h
      obtain ⟨q1, q2, q3⟩ := toolXml_none junk0 junk n g _ x e2 e4
      exact .inr ⟨[], e4, rfl, .inr ⟨rfl, q1, by rw [← hci q3]; exact q2, rfl⟩⟩
  · obtain ⟨e', s1, _, s3⟩ := say_read errorStrInit msg errorStrInit_length (notParsed_storable hm)
    simp only [s1, ok_bind, p1] at h
    obtain ⟨o, e4, h⟩ := bind_eq_ok.mp h
    cases o with
    | some m =>
      obtain ⟨tt, e5, h⟩ := bind_eq_ok.mp h
      cases h
      exact .inl ⟨m, tt, e4, e5, rfl⟩
    | none =>
      unfold parseShow at h
      rw [s3, ok_bind] at h
      cases h
      exact .inr ⟨msg, e4, rfl, .inl ⟨rfl, hnp msg hm⟩⟩

/-- the frame object after parsing a telegram with checksum byte `ck`, right or wrong -/
theorem parse_withSum (c a ci ck : Byte) (p : List Byte) (hl : Spec.Telegram.Legal (.data c a ci p)) (b0 : Buf 252)
    (hb0 : b0.bytes = p ++ Frame.zero.data.bytes.drop p.length) :
    ∃ r m e, mbusParseE Frame.zero (withSum c a ci p ck) (withSum c a ci p ck).length =
        .ok (r, longFrame Frame.zero (UInt8.ofNat (p.length + 3)) 0x68 c a ci p ck 0x16 b0, m) ∧ say errorStrInit m = .ok e ∧ e.length = 512 := by
  have hp : p.length ≤ 252 := hl.2
  have hn : (UInt8.ofNat (p.length + 3)).toNat = p.length + 3 := by simp; omega
  obtain ⟨b, hb, hk⟩ := parse_long Frame.zero (UInt8.ofNat (p.length + 3)) 0x68 c a ci ck 0x16 p [] hn
  have : b = b0 := by
    cases b; cases b0; simp only at hb hb0; simp only [Buf.mk.injEq]; rw [hb, hb0]
  subst this
  have hlen : (withSum c a ci p ck).length = p.length + 9 := by simp [withSum]
  obtain ⟨r, g, m, h1, h2, h3, h4⟩ := C119_parse Frame.zero (withSum c a ci p ck)
  have h2' := h2
  rw [hlen] at h2'
  unfold withSum at h2'
  rw [hk] at h2'
  injection h2' with h2'
  injection h2' with _ h2'
  subst h2'
  cases m with
  | none => exact ⟨r, none, errorStrInit, h1, rfl, errorStrInit_length⟩
  | some t =>
    obtain ⟨e', s1, s2, _⟩ := say_read errorStrInit t errorStrInit_length (wrong_storable ((h4 t).mp rfl))
    exact ⟨r, some t, e', h1, s1, s2⟩

/-- what `mbus_parse` does with it -/
theorem parseBody_withSum (dump : Buf 256) (junk0 : Nat → Byte) (junk : Nat → Nat → Byte) (n : Bool)
    (c a ci ck : Byte) (p : List Byte) (hl : Spec.Telegram.Legal (.data c a ci p)) (b0 : Buf 252)
    (hb0 : b0.bytes = p ++ Frame.zero.data.bytes.drop p.length) :
    ∃ e, e.length = 512 ∧ parseBody dump junk0 junk n (withSum c a ci p ck) = (do
      let (_, x, m) ← frameDataParseE (longFrame Frame.zero (UInt8.ofNat (p.length + 3)) 0x68 c a ci p 0 0x16 b0) FrameData.new
      let e ← say e m
      let m ← toolXml junk0 junk n x
      parseShow (telegramDump (.data c a ci p) ++ [10]) e m) := by
  obtain ⟨r, m, e, h1, h2, h3⟩ := parse_withSum c a ci ck p hl b0 hb0
  have hp : p.length ≤ 252 := hl.2
  have hlen : (withSum c a ci p ck).length = p.length + 9 := by simp [withSum]
  refine ⟨e, h3, ?_⟩
  generalize hg : longFrame Frame.zero (UInt8.ofNat (p.length + 3)) 0x68 c a ci p ck 0x16 b0 = g at h1
  have hc : Carries g (.data c a ci p) := by
    rw [← hg]
    refine ⟨rfl, rfl, rfl, rfl, rfl, ?_⟩
    show b0.bytes.take p.length = p
    rw [hb0, List.take_left' rfl]
  have hs : StartStop g (.data c a ci p) := by rw [← hg]; exact ⟨rfl, rfl, rfl⟩
  obtain ⟨fs', p1⟩ := framePrint_dump dump [g] [.data c a ci p] (by simp) (.cons ⟨hl, hc, hs⟩ .nil)
  have hd : frameDataParseE g FrameData.new =
      frameDataParseE (longFrame Frame.zero (UInt8.ofNat (p.length + 3)) 0x68 c a ci p 0 0x16 b0) FrameData.new := by rw [← hg]; rfl
  unfold parseBody
  rw [List.take_of_length_le (by omega), Nat.min_eq_left (by omega), parseE_take _ _ _ (by simp), List.take_left' rfl, h1, ok_bind]
  have hout : unlines ([Spec.Telegram.data c a ci p].map telegramDump) = telegramDump (.data c a ci p) ++ [10] := by simp [unlines]
  rw [hout] at p1
  simp only [h2, ok_bind, hd, p1]

/-- C120 is violated by `mbus_parse`: a telegram with a wrong checksum is shown as if it were correct - the same output (with the correct
checksum in the dump), the same exit status, and no message.  (`mbus_parse_hex` refuses it: C120_hex.) -/
theorem C120_checksum_violation (dump : Buf 256) (junk0 : Nat → Byte) (junk : Nat → Nat → Byte) (disk : List Byte → Disk)
    (self good bad : List Byte) (n : Bool) (c a ci ck : Byte) (p : List Byte) (hl : Spec.Telegram.Legal (.data c a ci p))
    (hg : disk good = .content (Spec.Telegram.data c a ci p).wire) (hb : disk bad = .content (withSum c a ci p ck))
    (r : Printed) (h : parseMain dump junk0 junk disk self (operands n good) = .ok r) (h0 : r.code = 0) :
    parseMain dump junk0 junk disk self (operands n bad) = .ok r ∧
    (ck ≠ byteSum (c :: a :: ci :: p) → Wrong (withSum c a ci p ck) (badSum ck (byteSum (c :: a :: ci :: p)))) := by
  have hp : p.length ≤ 252 := hl.2
  have hn : (UInt8.ofNat (p.length + 3)).toNat = p.length + 3 := by simp; omega
  refine ⟨?_, fun hck => .sum _ c a ci ck p hn hl.1 hck⟩
  have hw : (Spec.Telegram.data c a ci p).wire = withSum c a ci p (byteSum (c :: a :: ci :: p)) := rfl
  obtain ⟨b0, hb0, _⟩ := parse_long Frame.zero (UInt8.ofNat (p.length + 3)) 0x68 c a ci ck 0x16 p [] hn
  obtain ⟨e1, l1, q1⟩ := parseBody_withSum dump junk0 junk n c a ci (byteSum (c :: a :: ci :: p)) p hl b0 hb0
  obtain ⟨e2, l2, q2⟩ := parseBody_withSum dump junk0 junk n c a ci ck p hl b0 hb0
  unfold parseMain at h ⊢
  rw [parseArgs_operands] at h ⊢
  simp only [parseOpen, hg, hw] at h
  simp only [parseOpen, hb]
  rw [q1] at h
  rw [q2]
  obtain ⟨⟨rc, x, m⟩, k1, h⟩ := bind_eq_ok.mp h
  obtain ⟨e1', k2, h⟩ := bind_eq_ok.mp h
  obtain ⟨o, k3, h⟩ := bind_eq_ok.mp h
  rw [k1]
  simp only [ok_bind]
  have hsay : ∃ e2', say e2 m = .ok e2' := by
    rcases (dataParse_said _ (show p.length ≤ 252 from hp) rc x m k1).2 with ⟨_, rfl⟩ | ⟨_, t, rfl, hm⟩
    · exact ⟨_, rfl⟩
    · obtain ⟨e', s1, _⟩ := say_read e2 t l2 (notParsed_storable hm)
      exact ⟨_, s1⟩
  obtain ⟨e2', k4⟩ := hsay
  rw [k4, ok_bind, k3, ok_bind]
  cases o with
  | none =>
    obtain ⟨t, _, h⟩ := bind_eq_ok.mp h
    cases h
    exact absurd h0 (by simp)
  | some m => exact h

/-- C120 is violated by `mbus_parse`: the message on bytes that do not begin with a start byte speaks of the control information, not of
their defect. -/
theorem C120_start_violation (dump : Buf 256) (junk0 : Nat → Byte) (junk : Nat → Nat → Byte) (disk : List Byte → Disk)
    (self name : List Byte) (b : Byte) (l : List Byte) (hb : b ∉ [0xE5, 0x10, 0x68]) (hd : disk name = .content (b :: l)) :
    Wrong (b :: l) (cs! "Invalid M-Bus frame start.") ∧
    parseMain dump junk0 junk disk self [name] =
      .ok ⟨1, cs! "mbus_frame_print: Dumping M-Bus frame [type 0, -3 bytes]: \n",
        cs! "Failed to generate XML representation of MBUS frame: Unknown control information 0x00\n"⟩ := by
  refine ⟨.start b l hb, ?_⟩
  simp only [List.mem_cons, List.not_mem_nil, or_false, not_or] at hb
  obtain ⟨e, s1, s2, _⟩ := say_read errorStrInit (cs! "Invalid M-Bus frame start.") errorStrInit_length (by unfold Storable; decide)
  obtain ⟨e', t1, t2, t3⟩ := say_read e (cs! "Unknown control information 0x00") s2 (by unfold Storable; decide)
  have hparse : ∀ (d : List Byte) (k : Nat), 0 < k → d.head? = some b → mbusParseE Frame.zero d k = .ok (-4, Frame.zero, some (cs! "Invalid M-Bus frame start.")) := by
    intro d k hk hd
    match d, hd with
    | x :: d, hd =>
      cases hd
      unfold mbusParseE
      rw [if_neg (by omega), rd_ok (by simp), ok_bind]
      simp only [List.getElem_cons_zero]
      rw [if_neg (show ¬ b = ACK_START from hb.1), if_neg (show ¬ b = SHORT_START from hb.2.1), if_neg (show ¬ b = LONG_START from hb.2.2)]
  have hdata : frameDataParseE Frame.zero FrameData.new = .ok (-1, FrameData.new, some (cs! "Unknown control information 0x00")) := by rfl
  have hprint : ∃ fs, framePrint dump [Frame.zero] = .ok (0, cs! "mbus_frame_print: Dumping M-Bus frame [type 0, -3 bytes]: \n", fs) := by
    have hp : framePack Frame.zero dump.bytes 256 = .ok (-3, Frame.zero, dump.bytes) := by rfl
    have h0 : fmtInt Frame.zero.type = cs! "0" := by decide +kernel
    have h3 : fmtInt (-3) = cs! "-3" := by decide +kernel
    refine ⟨[Frame.zero], ?_⟩
    unfold framePrint framePrintLoop
    simp only
    rw [hp, ok_bind]
    simp only
    rw [if_neg (by decide), h0, h3]
    rfl
  obtain ⟨fs, hprint⟩ := hprint
  show parseMain dump junk0 junk disk self (operands false name) = _
  unfold parseMain
  rw [parseArgs_operands]
  simp only [parseOpen, hd]
  unfold parseBody
  rw [hparse _ _ (by simp; omega) (by simp), ok_bind]
  simp only [s1, ok_bind, hdata, t1, hprint]
  have hx : toolXml junk0 junk false FrameData.new = .ok none := by rfl
  rw [hx, ok_bind]
  unfold parseShow
  rw [t3, ok_bind]
  rfl

/-- C120 (`mbus_parse`, records whose texts are not too long, as in C98): a response telegram with variable-length data - the checksum right or
wrong: the dump of the telegram and the document on standard output, nothing on standard error, exit status 0. -/
theorem C120_binary_document (dump : Buf 256) (junk0 : Nat → Byte) (junk : Nat → Nat → Byte) (disk : List Byte → Disk)
    (self fname : List Byte) (c a ck : Byte) (p : List Byte) (hd : disk fname = .content (withSum c a 0x72 p ck))
    (hl : Spec.Telegram.Legal (.data c a 0x72 p)) (hdir : c &&& 0x40 = 0) (h12 : 12 ≤ p.length)
    (h : VarHeader) (hh : HeaderIs h p) (rs : List Rec) (ht : Tiles (p.drop 12) rs) (units : List (List Byte)) (hu : units.length = rs.length)
    (hs : ∀ it ∈ (rs.map mkRec).zip (units.map (·, none)), Showable it) :
    ∃ name, productName h = .ok name ∧ parseMain dump junk0 junk disk self [fname] =
      .ok ⟨0, telegramDump (.data c a 0x72 p) ++ [10] ++
        document (slaveGroup h name (mediumLookup h.medium) :: recordGroups none 0 ((rs.map mkRec).zip (units.map (·, none)))), []⟩ := by
  have hp : p.length ≤ 252 := hl.2
  have hn : (UInt8.ofNat (p.length + 3)).toNat = p.length + 3 := by simp; omega
  obtain ⟨b0, hb0, _⟩ := parse_long Frame.zero (UInt8.ofNat (p.length + 3)) 0x68 c a 0x72 ck 0x16 p [] hn
  obtain ⟨e, l, q⟩ := parseBody_withSum dump junk0 junk false c a 0x72 ck p hl b0 hb0
  generalize hg : longFrame Frame.zero (UInt8.ofNat (p.length + 3)) 0x68 c a 0x72 p 0 0x16 b0 = g at q
  have hc : Carries g (.data c a 0x72 p) := by
    rw [← hg]
    refine ⟨rfl, rfl, rfl, rfl, rfl, ?_⟩
    show b0.bytes.take p.length = p
    rw [hb0, List.take_left' rfl]
  obtain ⟨name, x, m, e1, e2, e3, e4⟩ := toolXml_document junk0 junk g c a p hc hdir h12 hp h hh rs ht units hu hs
  refine ⟨name, e1, ?_⟩
  show parseMain dump junk0 junk disk self (operands false fname) = _
  unfold parseMain
  rw [parseArgs_operands]
  simp only [parseOpen, hd]
  obtain ⟨m2, q1, q2⟩ := C119_data_parse g FrameData.new (by rw [hc.2.2.2.2.1]; exact hp) 0 x e2
  rcases q2 with ⟨_, rfl⟩ | ⟨k, _⟩
  · rw [q, q1]
    simp only [ok_bind, say, e3, parseShow, e4]
  · exact absurd k (by decide)

/-- a disk with one telegram: in hexadecimal, as it is, with a wrong checksum; and an application error in hexadecimal -/
def sampleDisk : List Byte → Disk := fun name =>
  if name = cs! "a.hex" then .content (hexDump volumeWire.wire)
  else if name = cs! "a.bin" then .content volumeWire.wire
  else if name = cs! "b.bin" then .content (withSum 0x08 1 0x72 (hdr ++ [0x01, 0x13, 5]) 0)
  else if name = cs! "e.hex" then .content (hexDump (Spec.Telegram.data 0x08 1 0x70 [8]).wire)
  else .unopenable

example (uninit : Buf 4096) (dump : Buf 256) (junk0 : Nat → Byte) (junk : Nat → Nat → Byte) :
    ∃ name, productName hdrHeader = .ok name ∧ parseHexMain uninit dump junk0 junk sampleDisk (cs! "x") [cs! "a.hex"] =
      .ok ⟨0, document (slaveGroup hdrHeader name (mediumLookup 7) :: recordGroups none 0 [(volumeItem.1, volumeItem.2.1, none)]), []⟩ :=
  C120_hex_document uninit dump junk0 junk sampleDisk (cs! "x") (cs! "a.hex") (hexDump volumeWire.wire) rfl 0x08 1 (hdr ++ [0x01, 0x13, 5])
    ⟨by decide, by decide⟩ (hexText_dump _)
    (by decide +kernel) (by decide) (by decide) hdrHeader (by unfold HeaderIs; decide) [.value 0x01 [] 0x13 [] [] [5]] volume_tiles [cs! "Volume (m m^3)"] rfl
    (by intro it hit; rw [List.mem_singleton.mp hit]; exact ⟨volume_showable.1.1, volume_showable.1.2, volume_showable.1.3⟩)

/-- the wrong checksum (0 instead of 0x20) makes no difference -/
example (dump : Buf 256) (junk0 : Nat → Byte) (junk : Nat → Nat → Byte) : ∃ r, r.code = 0 ∧ r.err = [] ∧
    parseMain dump junk0 junk sampleDisk (cs! "x") [cs! "a.bin"] = .ok r ∧ parseMain dump junk0 junk sampleDisk (cs! "x") [cs! "b.bin"] = .ok r := by
  obtain ⟨name, _, h⟩ := C120_binary_document dump junk0 junk sampleDisk (cs! "x") (cs! "a.bin") 0x08 1 _ (hdr ++ [0x01, 0x13, 5]) rfl ⟨by decide, by decide⟩
    (by decide) (by decide) hdrHeader (by unfold HeaderIs; decide) [.value 0x01 [] 0x13 [] [] [5]] volume_tiles [cs! "Volume (m m^3)"] rfl
    (by intro it hit; rw [List.mem_singleton.mp hit]; exact ⟨volume_showable.1.1, volume_showable.1.2, volume_showable.1.3⟩)
  exact ⟨_, rfl, rfl, h, (C120_checksum_violation dump junk0 junk sampleDisk (cs! "x") (cs! "a.bin") (cs! "b.bin") false 0x08 1 0x72 0 _
    ⟨by decide, by decide⟩ rfl rfl _ h rfl).1⟩
example : (0 : Byte) ≠ byteSum (0x08 :: 1 :: 0x72 :: (hdr ++ [0x01, 0x13, 5])) := by decide +kernel

example (uninit : Buf 4096) (dump : Buf 256) (junk0 : Nat → Byte) (junk : Nat → Nat → Byte) :
    parseHexMain uninit dump junk0 junk sampleDisk (cs! "x") [cs! "-n", cs! "e.hex"] =
      .ok ⟨1, [], cs! "Failed to generate XML representation of MBUS frame: \n"⟩ :=
  C120_error_violation uninit dump junk0 junk sampleDisk _ _ _ rfl (by decide +kernel) 0x08 1 8 (by decide) (by decide) (hexText_dump _)

/-- an incomplete telegram -/
example : Lacks [0x68, 3, 3, 0x68] 5 := .length 3 [0x68] (by decide) (by decide)

/-! Direct instances of the theorems above. -/

example (uninit : Buf 4096) (dump : Buf 256) (junk0 : Nat → Byte) (junk : Nat → Nat → Byte) :=
  C120_usage uninit dump junk0 junk sampleDisk (cs! "mbus_parse") [cs! "-x", cs! "a"] (by intro n file; cases n <;> simp [operands])
example (uninit : Buf 4096) (dump : Buf 256) (junk0 : Nat → Byte) (junk : Nat → Nat → Byte) (r : Printed)
    (h : parseHexMain uninit dump junk0 junk sampleDisk (cs! "x") [cs! "a.hex"] = .ok r) :=
  C120_hex uninit dump junk0 junk sampleDisk (cs! "x") (cs! "a.hex") false (hexDump volumeWire.wire) volumeWire.wire rfl (hexText_dump _) (by decide +kernel) r h
example (dump : Buf 256) (junk0 : Nat → Byte) (junk : Nat → Nat → Byte) (r : Printed)
    (h : parseMain dump junk0 junk sampleDisk (cs! "x") [cs! "-n", cs! "a.bin"] = .ok r) :=
  C120_binary_partial dump junk0 junk sampleDisk (cs! "x") (cs! "a.bin") true volumeWire ⟨by decide, by decide⟩ rfl r h

end Mbus
