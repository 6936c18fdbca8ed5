import Verif.Spec.Link
import Verif.Spec.Records
import Verif.Spec.Address
import Verif.Model.CStr
/-
Specification of the messages behind `mbus_error_str()`: which defect each message names.  Independent of the functions that store them.
-/
namespace Mbus.Spec

/-- two lower-case hexadecimal digits -/
def hex2l (b : Byte) : List Byte := [hexLower.getD (b.toNat / 16) 0, hexLower.getD (b.toNat % 16) 0]

/-- "Unknown Control Code 0x.." -/
def unknownCode (c : Byte) : List Byte := cs! "Unknown Control Code 0x" ++ hex2l c
/-- "Invalid checksum (0x.. != 0x..)": the one found, the one expected -/
def badSum (found expected : Byte) : List Byte :=
  cs! "Invalid checksum (0x" ++ hex2l found ++ cs! " != 0x" ++ hex2l expected ++ cs! ")"

/-- `Wrong bs t`: the bytes `bs` are neither a telegram nor the beginning of one, and `t` is the message that names the (first) defect. -/
inductive Wrong : List Byte → List Byte → Prop
  | empty : Wrong [] (cs! "Got null pointer to frame, data or zero data_size.")
  | start (b : Byte) (l : List Byte) : b ∉ [0xE5, 0x10, 0x68] → Wrong (b :: l) (cs! "Invalid M-Bus frame start.")
  | longShort (l : List Byte) : 4 < l.length → Wrong (0x10 :: l) (cs! "Too much data in frame.")
  | shortCode (c a ck st : Byte) : c ∉ shortCodes → Wrong [0x10, c, a, ck, st] (unknownCode c)
  | shortStop (c a ck st : Byte) : c ∈ shortCodes → st ≠ 0x16 → Wrong [0x10, c, a, ck, st] (cs! "No frame stop")
  | shortSum (c a ck : Byte) : c ∈ shortCodes → ck ≠ c + a → Wrong [0x10, c, a, ck, 0x16] (badSum ck (c + a))
  | length (l1 l2 : Byte) (l : List Byte) : l1.toNat < 3 ∨ l1 ≠ l2 → Wrong (0x68 :: l1 :: l2 :: l) (cs! "Invalid M-Bus frame length.")
  | tooLong (n : Byte) (l : List Byte) : 3 ≤ n.toNat → n.toNat + 3 < l.length → Wrong (0x68 :: n :: n :: l) (cs! "Too much data in frame.")
  | second (n s c a ci ck st : Byte) (p : List Byte) : n.toNat = p.length + 3 → s ≠ 0x68 →
      Wrong (0x68 :: n :: n :: s :: c :: a :: ci :: (p ++ [ck, st])) (cs! "No frame start")
  | code (n c a ci ck st : Byte) (p : List Byte) : n.toNat = p.length + 3 → c ∉ dataCodes →
      Wrong (0x68 :: n :: n :: 0x68 :: c :: a :: ci :: (p ++ [ck, st])) (unknownCode c)
  | stop (n c a ci ck st : Byte) (p : List Byte) : n.toNat = p.length + 3 → c ∈ dataCodes → st ≠ 0x16 →
      Wrong (0x68 :: n :: n :: 0x68 :: c :: a :: ci :: (p ++ [ck, st])) (cs! "No frame stop")
  | sum (n c a ci ck : Byte) (p : List Byte) : n.toNat = p.length + 3 → c ∈ dataCodes → ck ≠ byteSum (c :: a :: ci :: p) →
      Wrong (0x68 :: n :: n :: 0x68 :: c :: a :: ci :: (p ++ [ck, 0x16])) (badSum ck (byteSum (c :: a :: ci :: p)))

/-- `LowHex h n`: `h` is the number `n` in lower-case hexadecimal with at least two digits -/
def LowHex (h : List Byte) (n : Nat) : Prop :=
  ∃ ds : List Nat, (∀ d ∈ ds, d < 16) ∧ h = ds.map (fun d => hexLower.getD d 0) ∧ ds.foldl (fun a d => 16 * a + d) 0 = n ∧
    2 ≤ ds.length ∧ (2 < ds.length → ds.head? ≠ some 0)

/-- length field of a control or long frame object -/
def objectLength (f : Frame) : Byte := if f.type = 3 then 3 else UInt8.ofNat (f.dataSize + 3)
/-- checksum of a frame object -/
def objectSum (f : Frame) : Byte :=
  if f.type = 2 then byteSum [f.control, f.address]
  else if f.type = 3 then byteSum [f.control, f.address, f.ci]
  else byteSum (f.control :: f.address :: f.ci :: f.data.bytes.take f.dataSize)
/-- start bytes and control code of a frame object -/
def objectStart (f : Frame) : Prop := f.start1 = (if f.type = 2 then 0x10 else 0x68) ∧ (f.type = 2 ∨ f.start2 = 0x68)
def objectCode (f : Frame) : Prop := f.control ∈ (if f.type = 2 then shortCodes else dataCodes)
def objectLengths (f : Frame) : Prop := f.type = 2 ∨ f.length1 = f.length2 ∧ f.length1 = objectLength f

/-- `Faulty f t`: the frame object `f` (no ACK) does not describe a telegram, and `t` is the message that names the first defect. -/
inductive Faulty (f : Frame) : List Byte → Prop
  | kind (h : List Byte) : f.type ∉ [1, 2, 3, 4] → LowHex h (f.type % 2 ^ 32).toNat → Faulty f (cs! "Unknown frame type 0x" ++ h)
  | start : f.type ∈ [2, 3, 4] → ¬ objectStart f → Faulty f (cs! "No frame start")
  | code : f.type ∈ [2, 3, 4] → objectStart f → ¬ objectCode f → Faulty f (unknownCode f.control)
  | lengths : f.type ∈ [3, 4] → objectStart f → objectCode f → f.length1 ≠ f.length2 → Faulty f (cs! "Frame length 1 != 2")
  | length : f.type ∈ [3, 4] → objectStart f → objectCode f → f.length1 = f.length2 → f.length1 ≠ objectLength f →
      Faulty f (cs! "Frame length 1 != calc length")
  | stop : f.type ∈ [2, 3, 4] → objectStart f → objectCode f → objectLengths f → f.stop ≠ 0x16 → Faulty f (cs! "No frame stop")
  | sum : f.type ∈ [2, 3, 4] → objectStart f → objectCode f → objectLengths f → f.stop = 0x16 → f.checksum ≠ objectSum f →
      Faulty f (badSum f.checksum (objectSum f))

/-- the byte has bit 7 set: an extension byte follows -/
def Extended (b : Byte) : Prop := 128 ≤ b.toNat
instance (b : Byte) : Decidable (Extended b) := by unfold Extended; infer_instance

/-- DIF and DIFEs at the beginning of an ordinary record -/
def DifBlock (dif : Byte) (difes : List Byte) : Prop :=
  dif ≠ 0x0F ∧ dif ≠ 0x1F ∧ dif ≠ 0x2F ∧ Chain dif difes ∧ difes.length ≤ 10

/-- what follows a VIF that announces a plain-text unit -/
def textBlock (vif : Byte) (text : List Byte) : List Byte := if PlainText vif then UInt8.ofNat text.length :: text else []

/-- the text of a plain-text VIF -/
def TextBlock (vif : Byte) (text : List Byte) : Prop := text.length ≤ 127 ∧ (¬ PlainText vif → text = [])

/-- `Broken q t`: the bytes `q` (up to the end of the data) begin with a record that has too many extension bytes or is cut off, and `t` is
the message that says so.  Where nothing follows the DIFEs, or the VIF of a plain-text unit, the next byte is taken from behind the data,
and one of several messages results. -/
inductive Broken : List Byte → List Byte → Prop
  | manyDife (bs rest : List Byte) : bs.length = 11 → (∀ b ∈ bs, Extended b) → Broken (bs ++ rest) (cs! "Too many DIFE.")
  | endDif (bs : List Byte) : bs ≠ [] → bs.length ≤ 10 → (∀ b ∈ bs, Extended b) → Broken bs (cs! "Premature end of record at DIF.")
  | noVif (dif : Byte) (difes t : List Byte) : DifBlock dif difes →
      t ∈ [cs! "Premature end of record at VIF.", cs! "Premature end of record at variable length VIF.", cs! "Too long variable length VIF."] →
      Broken (dif :: difes) t
  | noLength (dif : Byte) (difes : List Byte) (vif : Byte) (t : List Byte) : DifBlock dif difes → PlainText vif →
      t ∈ [cs! "Premature end of record at variable length VIF.", cs! "Too long variable length VIF."] →
      Broken (dif :: difes ++ [vif]) t
  | longText (dif : Byte) (difes : List Byte) (vif n : Byte) (rest : List Byte) : DifBlock dif difes → PlainText vif → 128 < n.toNat →
      Broken (dif :: difes ++ vif :: n :: rest) (cs! "Too long variable length VIF.")
  | endText (dif : Byte) (difes : List Byte) (vif n : Byte) (rest : List Byte) : DifBlock dif difes → PlainText vif → n.toNat ≤ 128 →
      rest.length < n.toNat → Broken (dif :: difes ++ vif :: n :: rest) (cs! "Premature end of record at variable length VIF.")
  | manyVife (dif : Byte) (difes : List Byte) (vif : Byte) (text bs rest : List Byte) : DifBlock dif difes → TextBlock vif text →
      Extended vif → bs.length = 10 → (∀ b ∈ bs, Extended b) →
      Broken (dif :: difes ++ vif :: textBlock vif text ++ bs ++ rest) (cs! "Too many VIFE.")
  | endVife (dif : Byte) (difes : List Byte) (vif : Byte) (text bs : List Byte) : DifBlock dif difes → TextBlock vif text →
      Extended vif → bs.length ≤ 9 → (∀ b ∈ bs, Extended b) →
      Broken (dif :: difes ++ vif :: textBlock vif text ++ bs) (cs! "Premature end of record at VIF.")
  | endData (dif : Byte) (difes : List Byte) (vif : Byte) (text vifes rest : List Byte) : DifBlock dif difes → TextBlock vif text →
      Chain vif vifes → vifes.length ≤ 10 →
      (if dif.toNat % 16 = 0xD then ∀ b r, rest = b :: r → r.length < lvarBytes b else rest.length < width dif) →
      Broken (dif :: difes ++ vif :: textBlock vif text ++ vifes ++ rest) (cs! "Premature end of record at data.")

/-- `NotParsed c ci p t`: the data `p` of a telegram with control byte `c` and control information `ci` are no proper response, and `t` is the
message that says why. -/
inductive NotParsed (c ci : Byte) (p : List Byte) : List Byte → Prop
  | direction : c &&& 0x40 ≠ 0 → NotParsed c ci p (cs! "Wrong direction in frame (master to slave)")
  | kind : c &&& 0x40 = 0 → ci ∉ [0x70, 0x72, 0x73] → NotParsed c ci p (cs! "Unknown control information 0x" ++ hex2l ci)
  | nothing : c &&& 0x40 = 0 → ci ∈ [0x72, 0x73] → p = [] → NotParsed c ci p (cs! "Got zero data_size.")
  | fixed : c &&& 0x40 = 0 → ci = 0x73 → p ≠ [] → p.length ≠ 16 → NotParsed c ci p (cs! "Invalid length for fixed data.")
  | header : c &&& 0x40 = 0 → ci = 0x72 → p ≠ [] → p.length < 12 → NotParsed c ci p (cs! "Variable header too short.")
  | record (done q : List Byte) (rs : List Rec) (t : List Byte) : c &&& 0x40 = 0 → ci = 0x72 → 12 ≤ p.length →
      p.drop 12 = done ++ q → Tiles done rs → (∀ r ∈ rs, ∀ dif data, r ≠ .special dif data) → Broken q t → NotParsed c ci p t

end Mbus.Spec
