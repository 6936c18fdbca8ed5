import Verif.Base
/-
Model of the link-layer part of mbus/mbus-protocol.c (and the types of mbus/mbus-protocol.h).
Not modelled: `error_str` messages written on failure, `parse_debug` output, `timestamp`.
-/
namespace Mbus

/-! ### constants -/

/-- mbus-protocol.h:300-304 MBUS_FRAME_TYPE_* -/
def TYPE_ANY : Int := 0
def TYPE_ACK : Int := 1
def TYPE_SHORT : Int := 2
def TYPE_CONTROL : Int := 3
def TYPE_LONG : Int := 4

/-- mbus-protocol.h:324-328 MBUS_FRAME_*_START / MBUS_FRAME_STOP -/
def ACK_START : Byte := 0xE5
def SHORT_START : Byte := 0x10
def CONTROL_START : Byte := 0x68
def LONG_START : Byte := 0x68
def FRAME_STOP : Byte := 0x16

/-- mbus-protocol.h:333 MBUS_MAX_PRIMARY_SLAVES -/
def MAX_PRIMARY_SLAVES : Nat := 250

/-- mbus-protocol.h:348-362 MBUS_CONTROL_MASK_* -/
def MASK_SND_NKE : Byte := 0x40
def MASK_SND_UD : Byte := 0x53
def MASK_REQ_UD2 : Byte := 0x5B
def MASK_REQ_UD1 : Byte := 0x5A
def MASK_RSP_UD : Byte := 0x08
def MASK_FCB : Byte := 0x20
def MASK_FCV : Byte := 0x10
def MASK_ACD : Byte := 0x20
def MASK_DFC : Byte := 0x10
def MASK_DIR : Byte := 0x40
def MASK_DIR_M2S : Byte := 0x40
def MASK_DIR_S2M : Byte := 0x00

/-- mbus-protocol.h:73-98 `struct _mbus_frame`.
Simplification: no `timestamp`; the `next` pointer is modelled where chains are built (Model/Session). -/
structure Frame where
  start1 : Byte
  length1 : Byte
  length2 : Byte
  start2 : Byte
  control : Byte
  address : Byte
  ci : Byte
  checksum : Byte
  stop : Byte
  data : Buf 252
  dataSize : Nat
  type : Int
  deriving DecidableEq, Repr

/-- `memset(frame, 0, sizeof(mbus_frame))` -/
def Frame.zero : Frame :=
  { start1 := 0, length1 := 0, length2 := 0, start2 := 0, control := 0, address := 0, ci := 0,
    checksum := 0, stop := 0, data := Buf.zero 252, dataSize := 0, type := 0 }

/-- mbus-protocol.c:127-173 `mbus_frame_new` (malloc failure not modelled). -/
def frameNew (ty : Int) : Frame :=
  let f := { Frame.zero with type := ty }
  if ty = TYPE_ACK then { f with start1 := ACK_START }
  else if ty = TYPE_SHORT then { f with start1 := SHORT_START, stop := FRAME_STOP }
  else if ty = TYPE_CONTROL then
    { f with start1 := CONTROL_START, start2 := CONTROL_START, length1 := 3, length2 := 3, stop := FRAME_STOP }
  else if ty = TYPE_LONG then { f with start1 := LONG_START, start2 := LONG_START, stop := FRAME_STOP }
  else f

/-- mbus-protocol.c:195-238 `calc_checksum`; `unsigned char` additions wrap, the payload loop reads `data[i]`. -/
def calcChecksum (f : Frame) : C Byte :=
  if f.type = TYPE_SHORT then .ok (f.control + f.address)
  else if f.type = TYPE_CONTROL then .ok (f.control + f.address + f.ci)
  else if f.type = TYPE_LONG then
    forN f.dataSize 0 (f.control + f.address + f.ci) fun i ck => do
      let b ← f.data.rd i
      .ok (ck + b)
  else .ok 0

/-- mbus-protocol.c:245-266 `mbus_frame_calc_checksum` (frame non-NULL): return code and updated frame. -/
def frameCalcChecksum (f : Frame) : C (Int × Frame) :=
  if f.type = TYPE_ACK ∨ f.type = TYPE_SHORT ∨ f.type = TYPE_CONTROL ∨ f.type = TYPE_LONG then do
    let ck ← calcChecksum f
    .ok (0, { f with checksum := ck })
  else .ok (-1, f)

/-- mbus-protocol.c:271-284 `calc_length`; the `size_t` sum is truncated to `unsigned char`. -/
def calcLength (f : Frame) : Byte :=
  if f.type = TYPE_CONTROL then 3
  else if f.type = TYPE_LONG then UInt8.ofNat (f.dataSize + 3)
  else 0

/-- mbus-protocol.c:289-298 `mbus_frame_calc_length` (always returns 0). -/
def frameCalcLength (f : Frame) : Int × Frame :=
  (0, { f with length1 := calcLength f, length2 := calcLength f })

/-- mbus-protocol.c:316-331 `mbus_frame_direction` (frame non-NULL). -/
def frameDirection (f : Frame) : Byte :=
  if f.type = TYPE_ACK then MASK_DIR_S2M else f.control &&& MASK_DIR

/-- mbus-protocol.c:345-444 `mbus_frame_verify` (frame non-NULL). -/
def frameVerify (f : Frame) : C Int :=
  let tail : C Int :=
    if f.stop ≠ FRAME_STOP then .ok (-1)
    else do
      let ck ← calcChecksum f
      if f.checksum ≠ ck then .ok (-1) else .ok 0
  if f.type = TYPE_ACK then .ok (if f.start1 = ACK_START then 1 else 0)
  else if f.type = TYPE_SHORT then
    if f.start1 ≠ SHORT_START then .ok (-1)
    else if f.control ≠ MASK_SND_NKE ∧ f.control ≠ MASK_REQ_UD1 ∧ f.control ≠ (MASK_REQ_UD1 ||| MASK_FCB) ∧
            f.control ≠ MASK_REQ_UD2 ∧ f.control ≠ (MASK_REQ_UD2 ||| MASK_FCB) then .ok (-1)
    else tail
  else if f.type = TYPE_CONTROL ∨ f.type = TYPE_LONG then
    if f.start1 ≠ CONTROL_START ∨ f.start2 ≠ CONTROL_START then .ok (-1)
    else if f.control ≠ MASK_SND_UD ∧ f.control ≠ (MASK_SND_UD ||| MASK_FCB) ∧ f.control ≠ MASK_RSP_UD ∧
            f.control ≠ (MASK_RSP_UD ||| MASK_DFC) ∧ f.control ≠ (MASK_RSP_UD ||| MASK_ACD) ∧
            f.control ≠ (MASK_RSP_UD ||| MASK_DFC ||| MASK_ACD) then .ok (-1)
    else if f.length1 ≠ f.length2 then .ok (-1)
    else if f.length1 ≠ calcLength f then .ok (-1)
    else tail
  else .ok (-1)

/-- mbus-protocol.c:3587-3745 `mbus_parse(frame, data, data_size)` with frame and data non-NULL.
`data` is the memory the pointer designates, `size` is the `data_size` argument. -/
def mbusParse (f : Frame) (data : List Byte) (size : Nat) : C (Int × Frame) :=
  if size = 0 then .ok (-1, f)
  else do
    let d0 ← rd data 0
    if d0 = ACK_START then .ok (0, { f with start1 := d0, type := TYPE_ACK })
    else if d0 = SHORT_START then
      if size < 5 then .ok (5 - (size : Int), f)
      else if size ≠ 5 then .ok (-2, f)
      else do
        let c ← rd data 1
        let a ← rd data 2
        let ck ← rd data 3
        let st ← rd data 4
        let f := { f with start1 := d0, control := c, address := a, checksum := ck, stop := st, type := TYPE_SHORT }
        let v ← frameVerify f
        if v ≠ 0 then .ok (-3, f) else .ok (0, f)
    else if d0 = LONG_START then
      if size < 3 then .ok (3 - (size : Int), f)
      else do
        let l1 ← rd data 1
        let l2 ← rd data 2
        let f := { f with start1 := d0, length1 := l1, length2 := l2 }
        if f.length1 < 3 then .ok (-2, f)
        else if f.length1 ≠ f.length2 then .ok (-2, f)
        else
          let len := f.length1.toNat
          if size < 6 + len then .ok (((6 + len - size : Nat) : Int), f)
          else if size > 6 + len then .ok (-2, f)
          else do
            let s2 ← rd data 3
            let c ← rd data 4
            let a ← rd data 5
            let ci ← rd data 6
            let f := { f with start2 := s2, control := c, address := a, ci := ci, dataSize := len - 3 }
            let buf ← forN f.dataSize 0 f.data fun i b => do
              let x ← rd data (7 + i)
              b.wr i x
            let ck ← rd data (size - 2)
            let st ← rd data (size - 1)
            let f := { f with data := buf, checksum := ck, stop := st,
                              type := if f.dataSize = 0 then TYPE_CONTROL else TYPE_LONG }
            let v ← frameVerify f
            if v ≠ 0 then .ok (-3, f) else .ok (0, f)
    else .ok (-4, f)

/-- `data[offset++] = v` -/
def put (s : List Byte × Nat) (v : Byte) : C (List Byte × Nat) := do
  let b ← wr s.1 s.2 v
  .ok (b, s.2 + 1)

/-- `put` of several bytes in sequence. -/
def puts : List Byte × Nat → List Byte → C (List Byte × Nat)
  | s, [] => .ok s
  | s, v :: vs => do
      let s ← put s v
      puts s vs

/-- mbus-protocol.c:4092-4190 `mbus_frame_pack(frame, data, data_size)`: return code, frame, buffer.
`buf` is the memory behind the `data` pointer, `size` the `data_size` argument. -/
def framePack (f : Frame) (buf : List Byte) (size : Nat) : C (Int × Frame × List Byte) := do
  let (r, f) := frameCalcLength f
  if r = -1 then .ok (-2, f, buf)
  else do
    let (r, f) ← frameCalcChecksum f
    if r = -1 then .ok (-3, f, buf)
    else if f.type = TYPE_ACK then
      if size < 1 then .ok (-4, f, buf)
      else do
        let (b, o) ← puts (buf, 0) [f.start1]
        .ok (o, f, b)
    else if f.type = TYPE_SHORT then
      if size < 5 then .ok (-4, f, buf)
      else do
        let (b, o) ← puts (buf, 0) [f.start1, f.control, f.address, f.checksum, f.stop]
        .ok (o, f, b)
    else if f.type = TYPE_CONTROL then
      if size < 9 then .ok (-4, f, buf)
      else do
        let (b, o) ← puts (buf, 0)
          [f.start1, f.length1, f.length2, f.start2, f.control, f.address, f.ci, f.checksum, f.stop]
        .ok (o, f, b)
    else if f.type = TYPE_LONG then
      if size < f.dataSize + 9 then .ok (-4, f, buf)
      else do
        let s ← puts (buf, 0) [f.start1, f.length1, f.length2, f.start2, f.control, f.address, f.ci]
        let s ← forN f.dataSize 0 s fun i s => do
          let x ← f.data.rd i
          put s x
        let (b, o) ← puts s [f.checksum, f.stop]
        .ok (o, f, b)
    else .ok (-5, f, buf)

end Mbus
