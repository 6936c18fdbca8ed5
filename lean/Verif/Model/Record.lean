import Verif.Model.Frame
import Verif.Model.Codec
/-
Model of the application-layer parser of mbus/mbus-protocol.c (2037-2081, 3455-3576, 3751-4085, 4196-4296) and of the
record/data structures of mbus/mbus-protocol.h:142-272.
Not modelled: `timestamp`, `error_str`, allocation failure (return -2).  The record list is a Lean list in list order;
the pointer-level list operations are modelled in Model/Heap.lean.
-/
namespace Mbus

/-- mbus-protocol.h:142-186 `mbus_data_record` with its DIB and VIB (without `timestamp`, `next`). -/
structure Record where
  dif : Byte
  dife : Buf 10
  ndife : Nat
  vif : Byte
  vife : Buf 10
  nvife : Nat
  customVif : Buf 128
  data : Buf 234
  dataLen : Nat
  deriving DecidableEq, Repr

/-- mbus-protocol.c:5120-5134 `mbus_data_record_new`: all zero. -/
def Record.new : Record :=
  { dif := 0, dife := Buf.zero 10, ndife := 0, vif := 0, vife := Buf.zero 10, nvife := 0, customVif := Buf.zero 128,
    data := Buf.zero 234, dataLen := 0 }

/-- mbus-protocol.h:188-199 `mbus_data_variable_header`. -/
structure VarHeader where
  idBcd : Buf 4
  manufacturer : Buf 2
  version : Byte
  medium : Byte
  accessNo : Byte
  status : Byte
  signature : Buf 2
  deriving DecidableEq, Repr

/-- mbus-protocol.h:206-222 `mbus_data_variable` (the unused `data`, `mdh`, `mfg_data` are left out). -/
structure VarData where
  header : VarHeader
  records : List Record
  nrecords : Nat
  more : Byte
  deriving DecidableEq, Repr

/-- mbus-protocol.h:227-250 `mbus_data_fixed`. -/
structure FixedData where
  idBcd : Buf 4
  txCnt : Byte
  status : Byte
  cnt1Type : Byte
  cnt2Type : Byte
  cnt1Val : Buf 4
  cnt2Val : Buf 4
  deriving DecidableEq, Repr

/-- mbus-protocol.h:261-269 `mbus_frame_data`. -/
structure FrameData where
  var : VarData
  fix : FixedData
  type : Int
  error : Int
  deriving DecidableEq, Repr

/-- mbus-protocol.h:257-259 -/
def DATA_FIXED : Int := 1
def DATA_VARIABLE : Int := 2
def DATA_ERROR : Int := 3

/-- all zero header (memset of `mbus_frame_data_new`, mbus-protocol.c:5079-5095) -/
def VarHeader.zero : VarHeader :=
  { idBcd := Buf.zero 4, manufacturer := Buf.zero 2, version := 0, medium := 0, accessNo := 0, status := 0,
    signature := Buf.zero 2 }

def VarData.zero : VarData := { header := VarHeader.zero, records := [], nrecords := 0, more := 0 }
def FixedData.zero : FixedData :=
  { idBcd := Buf.zero 4, txCnt := 0, status := 0, cnt1Type := 0, cnt2Type := 0, cnt1Val := Buf.zero 4,
    cnt2Val := Buf.zero 4 }

/-- mbus-protocol.c:5079-5095 `mbus_frame_data_new`. -/
def FrameData.new : FrameData := { var := VarData.zero, fix := FixedData.zero, type := 0, error := 0 }

/-- Four / two consecutive fields assigned from four / two array elements. -/
def Buf.of4 (a b c d : Byte) : Buf 4 := ⟨[a, b, c, d], rfl⟩
def Buf.of2 (a b : Byte) : Buf 2 := ⟨[a, b], rfl⟩

/-- mbus-protocol.c:2037-2081 `mbus_dif_datalength_lookup`. -/
def difLength (dif : Byte) : Nat :=
  match (dif &&& 0x0F).toNat with
  | 0x0 => 0
  | 0x1 => 1
  | 0x2 => 2
  | 0x3 => 3
  | 0x4 => 4
  | 0x5 => 4
  | 0x6 => 6
  | 0x7 => 8
  | 0x8 => 0
  | 0x9 => 1
  | 0xA => 2
  | 0xB => 3
  | 0xC => 4
  | 0xD => 0
  | 0xE => 6
  | 0xF => 8
  | _ => 0

/-- mbus-protocol.c:3968-3983 (body of the `if`): the data length from the LVAR byte, `dflt` being the previous value. -/
def lvarLength (b : Byte) (dflt : Nat) : Nat :=
  (if b ≤ 0xBF then b.toNat
  else if 0xC0 ≤ b ∧ b ≤ 0xC9 then (b.toNat - 0xC0) * 2
  else if 0xD0 ≤ b ∧ b ≤ 0xD9 then (b.toNat - 0xD0) * 2
  else if 0xE0 ≤ b ∧ b ≤ 0xEF then b.toNat - 0xE0
  else if 0xF0 ≤ b ∧ b ≤ 0xF4 then (b.toNat - 0xEC) * 4
  else if b = 0xF5 then 48
  else if b = 0xF6 then 64
  else dflt) + 1

/-- mbus-protocol.c:3876-3893, the DIFE loop: `room` is `10 - ndife`.  `none`: "Too many DIFE.", return -1.
Result: index after the loop and the filled `dife`. -/
def difeLoop (d : Buf 252) (size : Nat) : (room : Nat) → (i ndife : Nat) → Buf 10 → C (Option (Nat × Nat × Buf 10))
  | room, i, n, dife =>
    if i < size then do
      let b ← d.rd i
      if b &&& 0x80 ≠ 0 then
        match room with
        | 0 => .ok none
        | room + 1 => do
            let x ← d.rd (i + 1)
            let dife ← dife.wr n x
            difeLoop d size room (i + 1) (n + 1) dife
      else .ok (some (i, n, dife))
    else .ok (some (i, n, dife))

/-- mbus-protocol.c:3938-3955, the VIFE loop (`room` is `10 - nvife`); same shape as the DIFE loop. -/
def vifeLoop (d : Buf 252) (size : Nat) : (room : Nat) → (i nvife : Nat) → Buf 10 → C (Option (Nat × Nat × Buf 10))
  | room, i, n, vife =>
    if i < size then do
      let b ← d.rd i
      if b &&& 0x80 ≠ 0 then
        match room with
        | 0 => .ok none
        | room + 1 => do
            let x ← d.rd (i + 1)
            let vife ← vife.wr n x
            vifeLoop d size room (i + 1) (n + 1) vife
      else .ok (some (i, n, vife))
    else .ok (some (i, n, vife))

/-- `for (j = 0; j < n; j++) record->data[j] = frame->data[i++];` (mbus-protocol.c:3859-3862, 3994-3997) -/
def copyData (d : Buf 252) (i n : Nat) (dst : Buf 234) : C (Buf 234) :=
  forN n 0 dst fun j dst => do
    let b ← d.rd (i + j)
    dst.wr j b

/-- mbus-protocol.c:3904-3928: VIF byte and the optional custom VIF text; result: index, vif, custom_vif. -/
def vifPart (d : Buf 252) (size i : Nat) (custom : Buf 128) : C (Option (Nat × Byte × Buf 128)) := do
  let vif ← d.rd i
  let i := i + 1
  if vif &&& 0x7F = 0x7C then do
    let len ← d.rd i
    let len := len.toNat
    let i := i + 1
    if len > 128 then .ok none
    else if i + len > size then .ok none
    else do
      let c ← strDecode custom.bytes (d.bytes.drop i) len
      .ok (some (i + len, vif, if h : c.length = 128 then ⟨c, h⟩ else custom))
  else .ok (some (i, vif, custom))

/-- mbus-protocol.c:3930-3957: VIFEs; result: index, nvife, vife. -/
def vifePart (d : Buf 252) (size i : Nat) (vif : Byte) (vife : Buf 10) : C (Option (Nat × Nat × Buf 10)) :=
  if vif &&& 0x80 ≠ 0 then do
    let x ← d.rd i
    let vife ← vife.wr 0 x
    match ← vifeLoop d size 9 i 1 vife with
    | none => .ok none
    | some (i, n, vife) => .ok (some (i + 1, n, vife))
  else .ok (some (i, 0, vife))

/-- mbus-protocol.c:3834-4001, one iteration of the record loop (after the filler test).
`none`: return -1.  `some (r, i)`: record `r` appended, continue at index `i`. -/
def varRecord (d : Buf 252) (size i : Nat) : C (Option (Record × Nat)) := do
  let dif ← d.rd i
  let r := { Record.new with dif := dif }
  if dif = 0x0F ∨ dif = 0x1F then do
    let i := i + 1
    let len := size - i
    let data ← copyData d i len r.data
    .ok (some ({ r with data := data, dataLen := len }, i + len))
  else do
    let len := difLength dif
    match ← difeLoop d size 10 i 0 r.dife with
    | none => .ok none
    | some (i, ndife, dife) => do
      let i := i + 1
      if i > size then .ok none
      else do
        match ← vifPart d size i r.customVif with
        | none => .ok none
        | some (i, vif, custom) => do
          match ← vifePart d size i vif r.vife with
          | none => .ok none
          | some (i, nvife, vife) => do
            if i > size then .ok none
            else do
              let len ← if dif &&& 0x0F = 0x0D then do
                  let b ← d.rd i
                  .ok (lvarLength b len)
                else .ok len
              if i + len > size then .ok none
              else do
                let data ← copyData d i len r.data
                .ok (some ({ dif := dif, dife := dife, ndife := ndife, vif := vif, vife := vife, nvife := nvife,
                             customVif := custom, data := data, dataLen := len }, i + len))

/-- mbus-protocol.c:3825-4002, the record loop.  The fuel is not in the C code; `C26` shows it never runs out. -/
def varLoop (d : Buf 252) (size : Nat) : (fuel : Nat) → (i : Nat) → VarData → C (Int × VarData)
  | fuel, i, v =>
    if i < size then
      match fuel with
      | 0 => .error .outOfFuel
      | fuel + 1 => do
        let b ← d.rd i
        if b = 0x2F then varLoop d size fuel (i + 1) v
        else do
          match ← varRecord d size i with
          | none => .ok (-1, { v with more := if b = 0x1F then 1 else v.more })
          | some (r, i') =>
              varLoop d size fuel i' { v with records := v.records ++ [r], nrecords := v.nrecords + 1,
                                              more := if b = 0x1F then 1 else v.more }
    else .ok (0, v)

/-- mbus-protocol.c:3809-3821: header copy. -/
def varHeader (d : Buf 252) : C VarHeader := do
  let b0 ← d.rd 0
  let b1 ← d.rd 1
  let b2 ← d.rd 2
  let b3 ← d.rd 3
  let b4 ← d.rd 4
  let b5 ← d.rd 5
  let b6 ← d.rd 6
  let b7 ← d.rd 7
  let b8 ← d.rd 8
  let b9 ← d.rd 9
  let b10 ← d.rd 10
  let b11 ← d.rd 11
  .ok { idBcd := Buf.of4 b0 b1 b2 b3, manufacturer := Buf.of2 b4 b5, version := b6, medium := b7, accessNo := b8,
        status := b9, signature := Buf.of2 b10 b11 }

/-- mbus-protocol.c:3790-4008 `mbus_data_variable_parse(frame, data)`: return code and `*data`. A previous record list is
dropped without being freed (as in the C code); with a short header it is left alone. -/
def variableParse (f : Frame) (v : VarData) : C (Int × VarData) := do
  let v := { v with nrecords := 0, more := 0 }
  if f.dataSize < 12 then .ok (-1, v)
  else do
    let h ← varHeader f.data
    varLoop f.data f.dataSize f.dataSize 12 { v with header := h, records := [] }

/-- mbus-protocol.c:3751-3784 `mbus_data_fixed_parse`. -/
def fixedParse (f : Frame) (x : FixedData) : C (Int × FixedData) :=
  if f.dataSize ≠ 16 then .ok (-1, x)
  else do
    let b0 ← f.data.rd 0
    let b1 ← f.data.rd 1
    let b2 ← f.data.rd 2
    let b3 ← f.data.rd 3
    let b4 ← f.data.rd 4
    let b5 ← f.data.rd 5
    let b6 ← f.data.rd 6
    let b7 ← f.data.rd 7
    let b8 ← f.data.rd 8
    let b9 ← f.data.rd 9
    let b10 ← f.data.rd 10
    let b11 ← f.data.rd 11
    let b12 ← f.data.rd 12
    let b13 ← f.data.rd 13
    let b14 ← f.data.rd 14
    let b15 ← f.data.rd 15
    .ok (0, { idBcd := Buf.of4 b0 b1 b2 b3, txCnt := b4, status := b5, cnt1Type := b6, cnt2Type := b7,
              cnt1Val := Buf.of4 b8 b9 b10 b11, cnt2Val := Buf.of4 b12 b13 b14 b15 })

/-- mbus-protocol.c:4014-4085 `mbus_frame_data_parse` (non-NULL arguments). -/
def frameDataParse (f : Frame) (x : FrameData) : C (Int × FrameData) :=
  if f.control &&& MASK_DIR = MASK_DIR_S2M then
    if f.ci = 0x70 then do
      let e ← if f.dataSize > 0 then do
          let b ← f.data.rd 0
          .ok (b.toNat : Int)
        else .ok 0
      .ok (0, { x with type := DATA_ERROR, error := e })
    else if f.ci = 0x73 then
      if f.dataSize = 0 then .ok (-1, x)
      else do
        let (r, y) ← fixedParse f x.fix
        .ok (r, { x with type := DATA_FIXED, fix := y })
    else if f.ci = 0x72 then
      if f.dataSize = 0 then .ok (-1, x)
      else do
        let (r, y) ← variableParse f x.var
        .ok (r, { x with type := DATA_VARIABLE, var := y })
    else .ok (-1, x)
  else .ok (-1, x)

/-! ### packing the application layer -/

/-- `frame->data[frame->data_size++] = b` -/
def push (f : Frame) (b : Byte) : C Frame := do
  let d ← f.data.wr f.dataSize b
  .ok { f with data := d, dataSize := f.dataSize + 1 }

/-- several pushes in a row -/
def pushAll (f : Frame) : List Byte → C Frame
  | [] => .ok f
  | b :: bs => do
      let f ← push f b
      pushAll f bs

/-- `for (j = 0; j < n; j++) frame->data[frame->data_size++] = a[j];` -/
def pushArray {k : Nat} (f : Frame) (a : Buf k) (n : Nat) : C Frame :=
  forN n 0 f fun j f => do
    let b ← a.rd j
    push f b

/-- mbus-protocol.c:4255-4286, the record loop of `mbus_frame_internal_pack`. -/
def packRecords (f : Frame) : List Record → C Frame
  | [] => .ok f
  | r :: rs => do
      let f ← push f r.dif
      let f ← pushArray f r.dife r.ndife
      let f ← push f r.vif
      let f ← pushArray f r.vife r.nvife
      let f ← pushArray f r.data r.dataLen
      packRecords f rs

/-- mbus-protocol.c:4196-4296 `mbus_frame_internal_pack(frame, frame_data)`. -/
def internalPack (f : Frame) (x : FrameData) : C (Int × Frame) := do
  let f := { f with dataSize := 0 }
  if x.type = DATA_ERROR then do
    let f ← push f (UInt8.ofNat (x.error % 256).toNat)
    .ok (0, f)
  else if x.type = DATA_FIXED then do
    let f ← pushAll f (x.fix.idBcd.bytes ++ [x.fix.txCnt, x.fix.status, x.fix.cnt1Type, x.fix.cnt2Type] ++
      x.fix.cnt1Val.bytes ++ x.fix.cnt2Val.bytes)
    .ok (0, f)
  else if x.type = DATA_VARIABLE then do
    let h := x.var.header
    let f ← pushAll f (h.idBcd.bytes ++ h.manufacturer.bytes ++ [h.version, h.medium, h.accessNo, h.status] ++
      h.signature.bytes)
    let f ← packRecords f x.var.records
    .ok (0, f)
  else .ok (-2, f)

/-! ### DIF/DIFE accessors -/

/-- Loop of the three accessors below: `result |= part(dife[i]) << bit_index; bit_index += step`, where the shift is
done in `int` (`part` is an `int` below 16): undefined for a shift amount ≥ 32 or a result above INT_MAX. -/
def assemble (dife : Buf 10) (part : Byte → Nat) (step : Nat) (n : Nat) (init bit0 : Nat) : C (Nat × Nat) :=
  forN n 0 (init, bit0) fun i (acc, bit) => do
    let b ← dife.rd i
    if 32 ≤ bit then .error .shift
    else if part b <<< bit > 2147483647 then .error .shift
    else .ok (acc ||| (part b <<< bit), bit + step)

/-- mbus-protocol.c:3455-3476 `mbus_data_record_storage_number`. -/
def storageNumber (r : Record) : C Int := do
  let (v, _) ← assemble r.dife (fun b => (b &&& 0x0F).toNat) 4 r.ndife ((r.dif &&& 0x40).toNat >>> 6) 1
  .ok v

/-- mbus-protocol.c:3481-3499 `mbus_data_record_tariff`. -/
def tariff (r : Record) : C Int :=
  if r.ndife > 0 then do
    let (v, _) ← assemble r.dife (fun b => (b &&& 0x30).toNat >>> 4) 2 r.ndife 0 0
    .ok v
  else .ok (-1)

/-- mbus-protocol.c:3504-3522 `mbus_data_record_device`. -/
def device (r : Record) : C Int :=
  if r.ndife > 0 then do
    let (v, _) ← assemble r.dife (fun b => (b &&& 0x40).toNat >>> 6) 1 r.ndife 0 0
    .ok v
  else .ok (-1)

end Mbus
