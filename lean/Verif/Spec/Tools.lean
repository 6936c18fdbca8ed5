import Verif.Model.Tools
import Verif.Model.Bus
import Verif.Spec.Scan
import Verif.Spec.Select
/-
Specification of the command line tools: what may happen on the handle and what is printed, as tables.
-/
namespace Mbus.Spec

/-- the frame is SND_NKE ("ping") for primary address `a` -/
def PingFrame (a : Nat) (f : Frame) : Prop := Carries f (.short 0x40 (UInt8.ofNat a))

/-- what happens and is printed for address `a` of a primary scan with at most `n` pings: a ping is repeated only if it is not
answered; the first one that is answered decides -/
inductive Pinging (a : Nat) : (n : Nat) → List Line → List Act → Prop
  /-- never answered -/
  | exhausted : Pinging a 0 [] []
  | again (n : Nat) (f : Frame) (c : Int) (g : Frame) (ls : List Line) (l : List Act) : PingFrame a f → c ≠ -1 → Pinging a n ls l →
      Pinging a (n + 1) ls (.sent f c :: .received RECV_TIMEOUT g :: l)
  | sendFailed (n : Nat) (f : Frame) : PingFrame a f → Pinging a (n + 1) [] [.sent f (-1)]
  /-- garbage -/
  | garbage (n : Nat) (f : Frame) (c : Int) (g : Frame) (r : Int) : PingFrame a f → c ≠ -1 →
      Pinging a (n + 1) [.collision a] [.sent f c, .received RECV_INVALID g, .purged r]
  /-- an acknowledge, and something after it -/
  | crowd (n : Nat) (f : Frame) (c : Int) (g : Frame) (r : Int) : PingFrame a f → c ≠ -1 → Carries g .ack → r ≠ 0 →
      Pinging a (n + 1) [.collision a] [.sent f c, .received RECV_OK g, .purged r]
  /-- an acknowledge, and nothing after it -/
  | found (n : Nat) (f : Frame) (c : Int) (g : Frame) : PingFrame a f → c ≠ -1 → Carries g .ack →
      Pinging a (n + 1) [.found a] [.sent f c, .received RECV_OK g, .purged 0]
  /-- something else than an acknowledge, or an error of the descriptor -/
  | other (n : Nat) (f : Frame) (c rc : Int) (g : Frame) : PingFrame a f → c ≠ -1 → rc ≠ RECV_TIMEOUT → rc ≠ RECV_INVALID →
      (rc = RECV_OK → ¬ Carries g .ack) → Pinging a (n + 1) [] [.sent f c, .received rc g]

/-- A receive that fails does not leave an acknowledge in a frame object that did not contain one. -/
def Honest {σ : Type} (o : Ops σ) : Prop :=
  ∀ s f c g s', f.type ≠ 1 → o.recv s f = .ok (c, g, s') → c ≠ RECV_OK → g.type ≠ 1

/-- what is written to the bus to ping address `a` -/
def pingWire (a : Byte) : List Byte := (Telegram.short 0x40 a).wire

/-- The bus with meters at the primary addresses `addrs` answers pings faithfully (in chunks of any size): with silence, an
acknowledge or, if several meters have the address, with something that starts with an acknowledge or is garbled. -/
def FaithfulPing (addrs : List Byte) (env : Env) : Prop :=
  ∀ sent a, ∃ cs, Chunks cs ∧ env.respond (sent ++ [pingWire a]) = evs cs ∧
    match addrs.filter (· = a) with
    | [] => cs.flatten = []
    | [_] => cs.flatten = [0xE5]
    | _ => Garbled cs.flatten ∨ ∃ rest, Garbled rest ∧ cs.flatten = 0xE5 :: rest

/-- what a scan prints about address `a` -/
def scanLine (addrs : List Byte) (a : Nat) : List Line :=
  match (addrs.filter (·.toNat = a)).length with
  | 0 => []
  | 1 => [.found a]
  | _ => [.collision a]

/-- the decimal numeral `s` denotes `n` -/
inductive Numeral : List Byte → Nat → Prop
  | digit (d : Byte) : IsDec d → Numeral [d] (d.toNat - 48)
  | more (s : List Byte) (n : Nat) (d : Byte) : Numeral s n → IsDec d → Numeral (s ++ [d]) (10 * n + (d.toNat - 48))

/-- nothing but resets of the link layer of the selected meters (SND_NKE to address FD) was sent -/
def OnlyResets (l : List Act) : Prop := ∀ f c, Act.sent f c ∈ l → Carries f (.short 0x40 0xFD)

/-- a command with user data (SND_UD, CI 51) -/
def UserData (f : Frame) : Prop := ∃ c a p, Carries f (.data c a 0x51 p)

/-- the log of reaching the meter the user named: `dest` is the primary address to use -/
inductive Reached (addr : List Byte) : (dest : Int) → List Act → Prop
  /-- 16 hexadecimal digits: a selection that found exactly one meter -/
  | secondary (l : List Act) : AddressMask addr → Selection addr 1 l → Reached addr 0xFD l
  /-- otherwise the number at the start of the text -/
  | primary : ¬ AddressMask addr → Reached addr (atoi addr) []

/-- what a readout of the meter `addr` may send: resets of the link layer of the selected meters, the selection of that meter, and
requests for data to it (`dest` is the primary address to use) -/
inductive ReadoutFrame (addr : List Byte) (f : Frame) : Prop
  | reset : Carries f (.short 0x40 0xFD) → ReadoutFrame addr f
  | select : AddressMask addr → SelectionFrame addr f → ReadoutFrame addr f
  | request (c : Byte) (dest : Int) : c = 0x5B ∨ c = 0x7B → (AddressMask addr ∧ dest = 0xFD ∨ ¬ AddressMask addr ∧ dest = atoi addr) → 0 ≤ dest ∧ dest ≤ 255 →
      Carries f (.short c (UInt8.ofNat dest.toNat)) → ReadoutFrame addr f

/-- what may be sent before the command to take address `new` is sent to the meter `old`: resets of the link layer of the selected
meters, pings of the new address and the selection of that meter -/
inductive SetupFrame (old new : List Byte) (f : Frame) : Prop
  | reset : Carries f (.short 0x40 0xFD) → SetupFrame old new f
  | ping (n : Nat) : atoi new = n → n ≤ 252 → PingFrame n f → SetupFrame old new f
  | select : AddressMask old → SelectionFrame old f → SetupFrame old new f

/-- exit status and output of a command that was answered with result `rc` and frame `g`: `line` is printed for an acknowledge -/
inductive Answered (line : Line) : (rc : Int) → (g : Frame) → Int → List Line → Prop
  | silence (g : Frame) : Answered line RECV_TIMEOUT g 1 []
  | acknowledged (g : Frame) : Carries g .ack → Answered line RECV_OK g 0 [line]
  | other (rc : Int) (g : Frame) : rc ≠ RECV_TIMEOUT → (rc = RECV_OK → ¬ Carries g .ack) → Answered line rc g 0 [.dump g]

/-- a command (SND_UD, control field 53) to address `a` with CI field `ci` and payload `p`; without payload, a control frame or a
long frame of length 0, which are the same on the wire -/
def CommandFrame (a ci : Byte) (p : List Byte) (f : Frame) : Prop :=
  (f.type = 4 ∨ (f.type = 3 ∧ p = [])) ∧ f.control = 0x53 ∧ f.address = a ∧ f.ci = ci ∧ f.dataSize = p.length ∧ f.data.bytes.take f.dataSize = p

/-- exit status, output and log of a command that prints `line` when it is acknowledged -/
inductive Commanded (line : Line) (a ci : Byte) (p : List Byte) : Int → List Line → List Act → Prop
  | sendFailed (f : Frame) : CommandFrame a ci p f → Commanded line a ci p 1 [] [.sent f (-1)]
  | answered (f : Frame) (c rc : Int) (g : Frame) (code : Int) (out : List Line) : CommandFrame a ci p f → c ≠ -1 → Answered line rc g code out →
      Commanded line a ci p code out [.sent f c, .received rc g]

/-- the payload of an application reset: no byte for a negative subcode -/
def resetPayload (subcode : Int) : List Byte := if 0 ≤ subcode then [UInt8.ofNat subcode.toNat] else []

/-- how the bus makes the named meter reachable: `dest` is the primary address to use, `after` what has then been transmitted -/
inductive Reachable (env : Env) (addr : List Byte) (before : List (List Byte)) : (dest : Byte) → (after : List (List Byte)) → Prop
  /-- a primary address in decimal -/
  | primary (n : Nat) : Numeral addr n → ¬ AddressMask addr → n ≤ 255 → Reachable env addr before (UInt8.ofNat n) before
  /-- 16 hexadecimal digits: the selection telegram is answered with one acknowledge -/
  | secondary (cs : List (List Byte)) : AddressMask addr → (∀ c ∈ addr.take 8, IdDigit c) → Chunks cs → cs.flatten = [0xE5] →
      env.respond (before ++ [(Telegram.data 0x73 0xFD 0x52 (addressBytes addr)).wire]) = evs cs →
      Reachable env addr before 0xFD (before ++ [(Telegram.data 0x73 0xFD 0x52 (addressBytes addr)).wire])

/-- after the two resets of the selection (SND_NKE to FD) nothing but complete chunks arrives, which the tool skips -/
def Resettable (env : Env) (before after : List (List Byte)) : Prop :=
  after = before ++ [pingWire 0xFD] ++ [pingWire 0xFD] ∧
  (∃ cs, Chunks cs ∧ env.respond (before ++ [pingWire 0xFD]) = evs cs) ∧ ∃ cs, Chunks cs ∧ env.respond after = evs cs

/-- the bytes are a telegram: an acknowledge (the rest is ignored), or exactly one short frame, control frame or long frame -/
def TelegramBytes (bs : List Byte) : Prop := bs.head? = some 0xE5 ∨ ∃ t : Telegram, t ≠ .ack ∧ t.Legal ∧ bs = t.wire

/-- the frame object contains the telegram with these bytes -/
def RawFrame (bs : List Byte) (f : Frame) : Prop :=
  (bs.head? = some 0xE5 ∧ Carries f .ack) ∨ ∃ t : Telegram, t ≠ .ack ∧ t.Legal ∧ bs = t.wire ∧ Carries f t

/-- exit status and log of sending the bytes `bs` of a file -/
inductive RawSent (bs : List Byte) : Int → List Act → Prop
  | notATelegram : ¬ TelegramBytes bs → RawSent bs 1 []
  | sendFailed (f : Frame) : RawFrame bs f → RawSent bs 1 [.sent f (-1)]
  | noAnswer (f : Frame) (c rc : Int) (g : Frame) : RawFrame bs f → c ≠ -1 → rc ≠ RECV_OK → RawSent bs 1 [.sent f c, .received rc g]
  | answered (f : Frame) (c : Int) (g : Frame) : RawFrame bs f → c ≠ -1 → RawSent bs 0 [.sent f c, .received RECV_OK g]

/-- what a scan for secondary addresses may send: resets of the link layer of the selected meters and of all meters, selections and
requests for data of the selected meter -/
def ScanFrame (f : Frame) : Prop :=
  Carries f (.short 0x40 0xFD) ∨ Carries f (.short 0x40 0xFF) ∨ (∃ m, AddressMask m ∧ SelectionFrame m f) ∨ Carries f (.short 0x5B 0xFD)

/-- what a scan prints, from its probes: a line for each device found by a probe, with the mask of that probe -/
def deviceLines (probes : List (List Byte × List Act)) : List Line :=
  probes.flatMap fun v => (foundOf v.2).map fun x => .device x.1 v.1

/-- after the two resets before a scan (SND_NKE to FD and to FF) nothing but complete chunks arrives, which the tool skips -/
def ResettableAll (env : Env) (before after : List (List Byte)) : Prop :=
  after = before ++ [pingWire 0xFD] ++ [pingWire 0xFF] ∧
  (∃ cs, Chunks cs ∧ env.respond (before ++ [pingWire 0xFD]) = evs cs) ∧ ∃ cs, Chunks cs ∧ env.respond after = evs cs

/-- exit status, output and log of selecting `addr` and asking the selected meter for its address -/
inductive Searched (addr : List Byte) : Int → List Line → List Act → Prop
  | malformed : ¬ AddressMask addr → Searched addr 1 [] []
  | sendFailed (f : Frame) : AddressMask addr → SelectionFrame addr f → Searched addr 1 [] [.sent f (-1)]
  /-- silence or garbage -/
  | notSelected (f : Frame) (c rc : Int) (g : Frame) : AddressMask addr → SelectionFrame addr f → c ≠ -1 → rc = RECV_TIMEOUT ∨ rc = RECV_INVALID →
      Searched addr 1 [] [.sent f c, .received rc g]
  /-- something else than an acknowledge, or an error of the descriptor -/
  | other (f : Frame) (c rc : Int) (g : Frame) : AddressMask addr → SelectionFrame addr f → c ≠ -1 → rc ≠ RECV_TIMEOUT → rc ≠ RECV_INVALID →
      (rc = RECV_OK → ¬ Carries g .ack) → Searched addr 0 [.dump g] [.sent f c, .received rc g]
  /-- selected, but then there is no answer to the request -/
  | requestFailed (f q : Frame) (c : Int) (g : Frame) : AddressMask addr → SelectionFrame addr f → c ≠ -1 → Carries g .ack →
      Carries q (.short 0x5B 0xFD) → Searched addr 1 [] [.sent f c, .received RECV_OK g, .sent q (-1)]
  | noData (f q : Frame) (c c' rc : Int) (g g' : Frame) : AddressMask addr → SelectionFrame addr f → c ≠ -1 → Carries g .ack →
      Carries q (.short 0x5B 0xFD) → c' ≠ -1 → rc ≠ RECV_OK → Searched addr 1 [] [.sent f c, .received RECV_OK g, .sent q c', .received rc g']
  /-- an acknowledge instead of data -/
  | empty (f q : Frame) (c c' : Int) (g g' : Frame) : AddressMask addr → SelectionFrame addr f → c ≠ -1 → Carries g .ack →
      Carries q (.short 0x5B 0xFD) → c' ≠ -1 → Carries g' .ack → Searched addr 0 [] [.sent f c, .received RECV_OK g, .sent q c', .received RECV_OK g']
  /-- the address in the data -/
  | found (f q : Frame) (c c' : Int) (g g' : Frame) (a : List Byte) : AddressMask addr → SelectionFrame addr f → c ≠ -1 → Carries g .ack →
      Carries q (.short 0x5B 0xFD) → c' ≠ -1 → ¬ Carries g' .ack → getSecondaryAddress g' = .ok (some a) →
      Searched addr 0 [.reply a] [.sent f c, .received RECV_OK g, .sent q c', .received RECV_OK g']

end Mbus.Spec
