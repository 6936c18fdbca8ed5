import Verif.Model.SessionMem
/-
Model of the memory used by the XML functions of mbus/mbus-protocol.c for records as received: `mbus_data_variable_xml`,
`mbus_data_fixed_xml`, `mbus_data_error_xml`, `mbus_frame_data_xml` and `mbus_frame_xml`.  The texts are those of Model/Xml.lean; here
each `malloc`, `realloc` and `mbus_data_record_new` may fail (heap `Mem` of Model/Owned.lean, record lists as in Model/SessionMem.lean).
-/
namespace Mbus

/-- mbus-protocol.c:4762-4781, 4998-5018, 5036-5056: the record loop.  `blocks` are the blocks of the record list with what they
hold; each is read (`load`) before it is printed.  `p` is the block of the text buffer, before and after.  `none`: `realloc` returned
NULL (what is released then differs, see the callers). -/
def recordsXmlOwned (junk : Nat → Nat → Byte) (frameCnt : Int) : List (Nat × Stamped) → Int → XBuf → Nat → Mem →
    C (Option (XBuf × Int) × Nat × Mem)
  | [], cnt, b, p, m => .ok (some (b, cnt), p, m)
  | (a, r, stamp) :: rs, cnt, b, p, m => do
      let _ ← m.load a
      let (g, m) ← growOwned (scratch (junk cnt.toNat) 3) b p m
      match g with
      | none => .ok (none, p, m)
      | some (b, p) => do
          let t ← recordXml (junk cnt.toNat) r stamp cnt frameCnt
          let b ← b.put t
          let cnt ← int32 (cnt + 1)
          recordsXmlOwned junk frameCnt rs cnt b p m

/-- mbus-protocol.c:4743-4790 `mbus_data_variable_xml(data)`; `recs` are the blocks of `data->record`.  NULL from `realloc`: only the
buffer is released. -/
def variableXmlOwned (junk0 : Nat → Byte) (junk : Nat → Nat → Byte) (h : VarHeader) (rs : List Stamped) (recs : List Nat) (m : Mem) :
    C (Option Nat × Mem) :=
  match m.alloc (malloc (scratch junk0 3) 8192) with
  | (none, m) => .ok (none, m)
  | (some p, m) => do
      let b : XBuf := ⟨malloc (scratch junk0 3) 8192, 0⟩
      let b ← b.put XML_PI
      let b ← b.put (cs! "<MBusData>\n\n")
      let t ← headerXml junk0 h
      let b ← b.put t
      let (g, p, m) ← recordsXmlOwned junk (-1) (recs.zip rs) 0 b p m
      match g with
      | none => do
          let m ← m.free p
          .ok (none, m)
      | some (b, _) => do
          let b ← b.put (cs! "</MBusData>\n")
          .ok (some p, m.store p b.mem)

/-- mbus-protocol.c:4795-4868, 4873-4898: `mbus_data_fixed_xml` and `mbus_data_error_xml` allocate one buffer (NULL: return NULL) and
fill it with `text`. -/
def bufferOwned (text : C (List Byte)) (m : Mem) : C (Option Nat × Mem) :=
  match m.alloc [] with
  | (none, m) => .ok (none, m)
  | (some p, m) => do
      let t ← text
      .ok (some p, m.store p t)

/-- mbus-protocol.c:4903-4925 `mbus_frame_data_xml(data)`; `recs` are the blocks of the record list of `data`. -/
def frameDataXmlOwned (junk0 : Nat → Byte) (junk : Nat → Nat → Byte) (x : FrameData) (stamps : List (Option (List Byte))) (recs : List Nat) (m : Mem) :
    C (Option Nat × Mem) :=
  if x.type = DATA_ERROR then bufferOwned (errorXml junk0 x.error) m
  else if x.type = DATA_FIXED then bufferOwned (fixedXml junk0 x.fix) m
  else if x.type = DATA_VARIABLE then variableXmlOwned junk0 junk x.var.header (x.var.records.zip stamps) recs m
  else .ok (none, m)

/-- mbus-protocol.c:4998-5024, 5036-5062: the records of one telegram are printed, then the list is released (the pointer `recs` is
kept).  `none`: `realloc` returned NULL, buffer and list were released, `return NULL`. -/
def printListOwned (junk : Nat → Nat → Byte) (frameCnt : Int) (stamp : Option (List Byte)) (x : FrameData) (recs : List Nat) (cnt : Int) (b : XBuf) (p : Nat)
    (m : Mem) : C (Option (XBuf × Int × Nat) × Mem) := do
  let (g, p, m) ← recordsXmlOwned junk frameCnt (recs.zip (x.var.records.map (·, stamp))) cnt b p m
  match g with
  | none => do
      let m ← m.free p
      let m ← m.freeList recs
      .ok (none, m)
  | some (b, cnt) => do
      let m ← m.freeList recs
      .ok (some (b, cnt, p), m)

/-- mbus-protocol.c:5028-5066: the loop over the second and later telegrams.  `recs` is what `frame_data.data_var.record` refers to:
after `mbus_data_record_free` the pointer dangles until a telegram is parsed as variable data (mbus-protocol.c:3823). -/
def chainXmlOwned (junk : Nat → Nat → Byte) : List Telegram → FrameData → List Nat → (cnt frameCnt : Int) → XBuf → Nat → Mem →
    C (Option Nat × Mem)
  | [], _, _, _, _, b, p, m => do
      let b ← b.put (cs! "</MBusData>\n")
      .ok (some p, m.store p b.mem)
  | (f, stamp) :: ts, x, recs, cnt, frameCnt, b, p, m => do
      let (rc, x, recs, m) ← frameDataParseOwned f x recs m
      if rc = -1 then .ok (none, m)
      else do
        let (g, m) ← printListOwned junk frameCnt stamp x recs cnt b p m
        match g with
        | none => .ok (none, m)
        | some (b, cnt, p) => do
            let frameCnt ← int32 (frameCnt + 1)
            chainXmlOwned junk ts x recs cnt frameCnt b p m

/-- mbus-protocol.c:4969-5068: a sequence of variable-data telegrams; `x`, `recs`: the parsed first telegram. -/
def sequenceXmlOwned (junk0 : Nat → Byte) (junk : Nat → Nat → Byte) (x : FrameData) (recs : List Nat) (stamp : Option (List Byte)) (ts : List Telegram) (m : Mem) :
    C (Option Nat × Mem) :=
  match m.alloc (malloc (scratch junk0 3) 8192) with
  | (none, m) => do
      let m ← m.freeList recs
      .ok (none, m)
  | (some p, m) => do
      let b : XBuf := ⟨malloc (scratch junk0 3) 8192, 0⟩
      let frameCnt : Int := if ts.isEmpty then -1 else 0
      let b ← b.put XML_PI
      let b ← b.put (cs! "<MBusData>\n\n")
      let h ← headerXml junk0 x.var.header
      let b ← b.put h
      let (g, m) ← printListOwned junk frameCnt stamp x recs 0 b p m
      match g with
      | none => .ok (none, m)
      | some (b, cnt, p) => do
          let frameCnt ← int32 (frameCnt + 1)
          chainXmlOwned junk ts x recs cnt frameCnt b p m

/-- mbus-protocol.c:4931-5073 `mbus_frame_xml(frame)` for a non-empty chain of telegrams: the block of the returned text (`none`: NULL). -/
def frameXmlOwned (junk0 : Nat → Byte) (junk : Nat → Nat → Byte) (t : Telegram) (ts : List Telegram) (m : Mem) : C (Option Nat × Mem) := do
  let (rc, x, recs, m) ← frameDataParseOwned t.1 FrameData.new [] m
  if rc = -1 then .ok (none, m)
  else if x.type = DATA_ERROR then bufferOwned (errorXml junk0 x.error) m
  else if x.type = DATA_FIXED then bufferOwned (fixedXml junk0 x.fix) m
  else if x.type = DATA_VARIABLE then sequenceXmlOwned junk0 junk x recs t.2 ts m
  else .ok (none, m)

end Mbus
