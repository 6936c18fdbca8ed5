import Verif.Model.Diag
import Verif.Spec.Messages
import Verif.Spec.Address
import Verif.Spec.Xml
/-
What the session functions say on stderr, written against the calls they make on their handle (`Act`): no helper of the model but the
types `Act`, `Note`, `Address` and the constants of the public headers occurs here.
-/
namespace Mbus.Spec

/-- an integer in decimal -/
def intText (z : Int) : List Byte := (if z < 0 then cs! "-" else []) ++ dec z.natAbs

/-! ### commands: why a command is refused before anything is sent -/

def addressRefusal (a : Int) : Option (List Byte) := if 0 ≤ a ∧ a ≤ 255 then none else some (cs! "invalid address " ++ intText a)

def baudRefusal (a baud : Int) : Option (List Byte) :=
  addressRefusal a <|> if baud ∈ [300, 600, 1200, 2400, 4800, 9600, 19200, 38400] then none else some (cs! "invalid baudrate " ++ intText baud)

def resetRefusal (a sub : Int) : Option (List Byte) :=
  addressRefusal a <|> if sub ≤ 255 then none else some (cs! "invalid subcode " ++ intText sub)

def dataRefusal (a : Int) (size : Nat) : Option (List Byte) :=
  addressRefusal a <|> if 1 ≤ size ∧ size ≤ 252 then none else some (cs! "illegal data_size " ++ dec size)

/-- `CommandTells fn refusal code purge r acts ls`: command `fn`, which has the reason `refusal` to be refused (then with return value
`code`), returns `r` after the calls `acts` and writes `ls`; `purge`: it waits for the replies. -/
inductive CommandTells (fn : List Byte) (refusal : Option (List Byte)) (code : Int) (purge : Bool) : Int → List Act → List Note → Prop
  | refused (t : List Byte) : refusal = some t → CommandTells fn refusal code purge code [] [⟨fn, t⟩]
  | notSent (f : Frame) : refusal = none → CommandTells fn refusal code purge (-1) [.sent f (-1)] [⟨fn, cs! "failed to send mbus frame."⟩]
  | done (f : Frame) (c : Int) : refusal = none → c ≠ -1 → purge = false → CommandTells fn refusal code purge 0 [.sent f c] []
  | purged (f : Frame) (c p : Int) : refusal = none → c ≠ -1 → purge = true → CommandTells fn refusal code purge 0 [.sent f c, .purged p] []

/-! ### selection -/

def selectName : List Byte := cs! "mbus_select_secondary_address"

/-- `SelectTells mask q r acts ls`: `mbus_select_secondary_address` with this mask returns `r` after the calls `acts` and writes `ls`; `q` is
the text of `mbus_error_str()` afterwards. -/
inductive SelectTells (mask q : List Byte) : Int → List Act → List Note → Prop
  | length : mask.length ≠ 16 → SelectTells mask q (-1) [] [⟨selectName, cs! "Invalid address masks."⟩]
  | digits : mask.length = 16 → ¬ (∀ c ∈ mask, IsHex c) → q = cs! "mbus_frame_select_secondary_pack: address is invalid." →
      SelectTells mask q (-1) [] [⟨cs! "mbus_send_select_frame", cs! "Failed to pack selection mbus frame."⟩,
        ⟨selectName, cs! "Failed to send selection frame: " ++ q ++ cs! "."⟩]
  | notSent (f : Frame) : mask.length = 16 → (∀ c ∈ mask, IsHex c) →
      SelectTells mask q (-1) [.sent f (-1)] [⟨cs! "mbus_send_select_frame", cs! "Failed to send mbus frame."⟩,
        ⟨selectName, cs! "Failed to send selection frame: " ++ q ++ cs! "."⟩]
  | nobody (f g : Frame) (c : Int) : mask.length = 16 → c ≠ -1 → SelectTells mask q 0 [.sent f c, .received RECV_TIMEOUT g] []
  | garbled (f g : Frame) (c p : Int) : mask.length = 16 → c ≠ -1 →
      SelectTells mask q 2 [.sent f c, .received RECV_INVALID g, .purged p] []
  | several (f g : Frame) (c e p : Int) : mask.length = 16 → c ≠ -1 → e ≠ RECV_TIMEOUT → e ≠ RECV_INVALID → g.type = 1 → p ≠ 0 →
      SelectTells mask q 2 [.sent f c, .received e g, .purged p] []
  | one (f g : Frame) (c e : Int) : mask.length = 16 → c ≠ -1 → e ≠ RECV_TIMEOUT → e ≠ RECV_INVALID → g.type = 1 →
      SelectTells mask q 1 [.sent f c, .received e g, .purged 0] []
  | unexpected (f g : Frame) (c e : Int) : mask.length = 16 → c ≠ -1 → e ≠ RECV_TIMEOUT → e ≠ RECV_INVALID → g.type ≠ 1 →
      SelectTells mask q 0 [.sent f c, .received e g] [⟨selectName, cs! "Unexpected reply for address [" ++ mask ++ cs! "]."⟩]

/-! ### `mbus_read_slave` -/

def readName : List Byte := cs! "mbus_read_slave"

/-- what `mbus_read_slave` says of a selection that did not return 1 -/
def verdict (t : List Byte) (r : Int) : List Byte :=
  if r = 2 then cs! "The address mask [" ++ t ++ cs! "] matches more than one device."
  else if r = 0 then cs! "The selected secondary address [" ++ t ++ cs! "] does not match any device."
  else cs! "Failed to probe secondary address [" ++ t ++ cs! "]."

/-- the request and the reply: return value, calls, lines -/
inductive AskTells (a : Int) : Int → List Act → List Note → Prop
  | refused (t : List Byte) : addressRefusal a = some t →
      AskTells a (-1) [] [⟨cs! "mbus_send_request_frame", t⟩, ⟨readName, cs! "Failed to send M-Bus request frame."⟩]
  | notSent (f : Frame) : addressRefusal a = none →
      AskTells a (-1) [.sent f (-1)] [⟨cs! "mbus_send_request_frame", cs! "failed to send mbus frame."⟩,
        ⟨readName, cs! "Failed to send M-Bus request frame."⟩]
  | noReply (f g : Frame) (c e : Int) : addressRefusal a = none → c ≠ -1 → e ≠ RECV_OK →
      AskTells a (-1) [.sent f c, .received e g] [⟨readName, cs! "Failed to receive M-Bus response frame."⟩]
  | reply (f g : Frame) (c : Int) : addressRefusal a = none → c ≠ -1 → AskTells a 0 [.sent f c, .received RECV_OK g] []

/-- `ReadTells addr q r acts ls`: `mbus_read_slave` of this address returns `r` after the calls `acts` and writes `ls`; `q` is the text of
`mbus_error_str()` afterwards. -/
inductive ReadTells (q : List Byte) : Address → Int → List Act → List Note → Prop
  | primary (a r : Int) (acts : List Act) (ls : List Note) : AskTells a r acts ls → ReadTells q (.primary a) r acts ls
  | unselected (t : List Byte) (r : Int) (acts : List Act) (ls : List Note) : SelectTells t q r acts ls → r ≠ 1 →
      ReadTells q (.secondary t) (-1) acts (ls ++ [⟨readName, verdict t r⟩])
  | selected (t q' : List Byte) (r : Int) (acts acts' : List Act) (ls : List Note) : SelectTells t q' 1 acts [] →
      AskTells 0xFD r acts' ls → ReadTells q (.secondary t) r (acts ++ acts') ls

/-! ### `mbus_sendrecv_request` -/

/-- `mbus_frame_data_parse` takes, or does not take, the data of frame `f` -/
def Accepts (f : Frame) : Prop := ∃ x r y, frameDataParse f x = .ok (r, y) ∧ r ≠ -1
def Refuses (f : Frame) : Prop := ∃ x y, frameDataParse f x = .ok (-1, y)

def requestLine (t : List Byte) : Note := ⟨cs! "mbus_sendrecv_request", t⟩

/-- what `mbus_sendrecv_request` says of one call on its handle -/
inductive StepTells : Act → List Note → Prop
  | sent (f : Frame) (c : Int) : c ≠ -1 → StepTells (.sent f c) []
  | notSent (f : Frame) : StepTells (.sent f (-1)) [requestLine (cs! "failed to send mbus frame.")]
  | good (f : Frame) : Accepts f → StepTells (.received RECV_OK f) []
  | bad (f : Frame) : Refuses f → StepTells (.received RECV_OK f) [requestLine (cs! "M-bus data parse error.")]
  | nothing (f : Frame) : StepTells (.received RECV_TIMEOUT f) [requestLine (cs! "No M-Bus response frame received.")]
  | invalid (f : Frame) : StepTells (.received RECV_INVALID f) [requestLine (cs! "Received invalid M-Bus response frame.")]
  | failed (c : Int) (f : Frame) : c ≠ RECV_OK → c ≠ RECV_TIMEOUT → c ≠ RECV_INVALID →
      StepTells (.received c f) [requestLine (cs! "Failed to receive M-Bus response frame.")]
  | purged (p : Int) : StepTells (.purged p) []

/-- every call on the handle is told in turn -/
inductive StepsTell : List Act → List Note → Prop
  | nil : StepsTell [] []
  | cons (a : Act) (l : List Note) (acts : List Act) (ls : List Note) : StepTells a l → StepsTell acts ls → StepsTell (a :: acts) (l ++ ls)

/-! ### probing and scanning -/

def probeName : List Byte := cs! "mbus_probe_secondary_address"

/-- why a reply has no secondary address -/
def AddressWrong (f : Frame) (t : List Byte) : Prop :=
  (f.ci ≠ 0x72 ∧ t = cs! "Non-variable data response (can't get secondary address from response).") ∨
  (f.ci = 0x72 ∧ NotParsed f.control f.ci (payload f) t)

/-- the second half of a probe, after the selection of one device -/
inductive PickTells (mask q : List Byte) : Int → List Act → List Note → Prop
  | notSent (f : Frame) : PickTells mask q (-1) [.sent f (-1)] [⟨cs! "mbus_send_request_frame", cs! "failed to send mbus frame."⟩,
      ⟨probeName, cs! "Failed to send request to selected secondary device [mask " ++ mask ++ cs! "]: " ++ q ++ cs! "."⟩]
  | nobody (f g : Frame) (c : Int) : c ≠ -1 → PickTells mask q 0 [.sent f c, .received RECV_TIMEOUT g] []
  | garbled (f g : Frame) (c p : Int) : c ≠ -1 → PickTells mask q 2 [.sent f c, .received RECV_INVALID g, .purged p] []
  | several (f g : Frame) (c e p : Int) : c ≠ -1 → e ≠ RECV_TIMEOUT → e ≠ RECV_INVALID → p ≠ 0 →
      PickTells mask q 2 [.sent f c, .received e g, .purged p] []
  | found (f g : Frame) (c e : Int) (addr : List Byte) : c ≠ -1 → e ≠ RECV_TIMEOUT → e ≠ RECV_INVALID → g.type = 4 →
      PickTells mask q 1 [.sent f c, .received e g, .purged 0, .found addr g] []
  | unnamed (f g : Frame) (c e : Int) : c ≠ -1 → e ≠ RECV_TIMEOUT → e ≠ RECV_INVALID → g.type = 4 →
      (g.dataSize ≤ 252 → AddressWrong g q) →
      PickTells mask q 0 [.sent f c, .received e g, .purged 0] [⟨[], cs! "Failed to generate secondary address from M-Bus reply frame: " ++ q⟩]
  | notLong (f g : Frame) (c e : Int) : c ≠ -1 → e ≠ RECV_TIMEOUT → e ≠ RECV_INVALID → g.type ≠ 4 →
      PickTells mask q 0 [.sent f c, .received e g, .purged 0]
        [⟨probeName, cs! "Unexpected reply for address [mask " ++ mask ++ cs! "]. Expected long frame."⟩]

/-- `ProbeTells mask q r acts ls`: `mbus_probe_secondary_address` of a mask of 16 characters -/
inductive ProbeTells (mask q : List Byte) : Int → List Act → List Note → Prop
  | last (q' : List Byte) (acts : List Act) (ls : List Note) : SelectTells mask q' 0 acts ls → ProbeTells mask q 0 acts ls
  | again (q' : List Byte) (r : Int) (acts acts' : List Act) (ls ls' : List Note) : SelectTells mask q' 0 acts ls →
      ProbeTells mask q r acts' ls' → ProbeTells mask q r (acts ++ acts') (ls ++ ls')
  | stop (r : Int) (acts : List Act) (ls : List Note) : SelectTells mask q r acts ls → r = -1 ∨ r = 2 → ProbeTells mask q r acts ls
  | picked (q' : List Byte) (r : Int) (acts acts' : List Act) (ls : List Note) : SelectTells mask q' 1 acts [] →
      PickTells mask q r acts' ls → ProbeTells mask q r (acts ++ acts') ls

/-- what a scan says: the lines of its probes, and one more line for a probe that failed -/
inductive ScanTells : List Act → List Note → Prop
  | nil : ScanTells [] []
  | probe (mask q : List Byte) (r : Int) (acts rest : List Act) (ls more : List Note) : ProbeTells mask q r acts ls → ScanTells rest more →
      ScanTells (.progress mask :: acts ++ rest)
        (ls ++ (if r = -1 then [⟨cs! "mbus_scan_2nd_address_range", cs! "Failed to probe secondary address [" ++ mask ++ cs! "]."⟩] else []) ++ more)

/-- the calls of a search left nothing in doubt: every telegram was taken by the transport, and every reply was a timeout, garbage, an
acknowledgement or a long frame, or was followed by further bytes -/
def Settled : List Act → Prop
  | [] => True
  | .sent _ c :: acts => c ≠ -1 ∧ Settled acts
  | .received e g :: acts =>
      (e = RECV_TIMEOUT ∨ e = RECV_INVALID ∨ g.type = 1 ∨ g.type = 4 ∨ ∃ p rest, p ≠ 0 ∧ acts = .purged p :: rest) ∧ Settled acts
  | _ :: acts => Settled acts

end Mbus.Spec
