import Verif.Model.Xml
/-
Model of the memory of normalised records: `mbus_record_new` and `mbus_record_free` (mbus-protocol-aux.c:1174-1227),
`mbus_parse_fixed_record` (1230-1271), `mbus_parse_variable_record` (1274-1385), `mbus_data_variable_xml_normalized` (1390-1480),
`mbus_frame_data_xml_normalized` (1486-1501), with every allocation and release.  What the functions compute is the model of
Model/Value.lean and Model/Xml.lean; here each text lives in a heap block, and each `malloc`, `strdup` and `realloc` may fail.
-/
namespace Mbus

/-- The heap: `next` is the next fresh block, `live` the live blocks with their contents, `answers` what the operating system will
answer to the next allocations (`false`: NULL; after the end of the list every allocation succeeds). -/
structure Mem where
  next : Nat
  live : List (Nat × List Byte)
  answers : List Bool
  deriving DecidableEq

/-- `malloc`/`strdup`: a block that gets the given content, or NULL. -/
def Mem.alloc (m : Mem) (content : List Byte) : Option Nat × Mem :=
  if m.answers.headD true then
    (some m.next, { next := m.next + 1, live := (m.next, content) :: m.live, answers := m.answers.tail })
  else (none, { m with answers := m.answers.tail })

/-- `free(p)` for a pointer that is not NULL. -/
def Mem.free (m : Mem) (a : Nat) : C Mem :=
  if a ∈ m.live.map (·.1) then .ok { m with live := m.live.filter fun x => decide (x.1 ≠ a) } else .error .doubleFree

/-- `if (p) free(p);` and `free(p)` alike: NULL is ignored. -/
def Mem.freePtr (m : Mem) : Option Nat → C Mem
  | none => .ok m
  | some a => m.free a

/-- The content of a live block. -/
def Mem.load (m : Mem) (a : Nat) : C (List Byte) :=
  match m.live.lookup a with
  | some s => .ok s
  | none => .error .useAfterFree

/-- What the program writes into a block it owns. -/
def Mem.store (m : Mem) (a : Nat) (content : List Byte) : Mem :=
  { m with live := m.live.map fun x => if x.1 = a then (a, content) else x }

/-- A string in a block, or NULL. -/
def Mem.string (m : Mem) : Option Nat → C (Option (List Byte))
  | none => .ok none
  | some a => do
      let s ← m.load a
      let t ← cstr s
      .ok (some t)

/-- mbus-protocol-aux.h:140-150 `mbus_record` in block `self`; the texts are pointers. The union `value` is `real` or `text`, `size`
according to `is_numeric`. Simplification: the fields are kept here, not in the bytes of the block. -/
structure HRecord where
  self : Nat
  numeric : Bool
  real : Flt
  text : Option Nat
  size : Int
  unit : Option Nat
  function : Option Nat
  quantity : Option Nat
  device : Int
  tariff : Int
  storage : Int
  deriving DecidableEq

/-- mbus-protocol-aux.c:1174-1194 `mbus_record_new()` -/
def recordNew (m : Mem) : Option HRecord × Mem :=
  match m.alloc [] with
  | (none, m) => (none, m)
  | (some a, m) => (some ⟨a, true, Flt.ofInt 0, none, 0, none, none, none, -1, -1, 0⟩, m)

/-- mbus-protocol-aux.c:1197-1227 `mbus_record_free(rec)`, `none` is NULL. -/
def recordFree (m : Mem) (w : Option HRecord) : C Mem :=
  match w with
  | none => .ok m
  | some r => do
      let m ← if r.numeric then .ok m else m.freePtr r.text
      let m ← m.freePtr r.unit
      let m ← m.freePtr r.function
      let m ← m.freePtr r.quantity
      m.free r.self

/-- What a program sees in the `value` field of a record. -/
def HRecord.readValue (m : Mem) (r : HRecord) : C NVal :=
  if r.numeric then .ok (.num r.real)
  else match r.text with
    | none => .error .null
    | some a => do
        let s ← m.load a
        .ok (.str s r.size)

/-- What a program sees in a record: the texts its pointers lead to. A missing function text would be a NULL dereference in the XML
output; a missing unit or quantity is NULL there. -/
def HRecord.read (m : Mem) (r : HRecord) : C NRecord := do
  let v ← r.readValue m
  let u ← m.string r.unit
  let f ← m.string r.function
  let q ← m.string r.quantity
  match f with
  | none => .error .null
  | some f => .ok ⟨v, u, f, q, r.device, r.tariff, r.storage⟩

/-- mbus-protocol-aux.c:798-820: the two `strdup` of a normalise function: unit and quantity, unchecked. -/
def dupNorm (m : Mem) (n : Norm) : Option Nat × Option Nat × Mem :=
  let (u, m) := m.alloc (n.unit ++ [0])
  let (q, m) := m.alloc (n.quantity ++ [0])
  (u, q, m)

/-- mbus-protocol-aux.c:1250-1251, 1265-1266, 1314-1315, 1325-1326, 1347-1348, 1356-1357, 1364-1366: `mbus_record_free(record); return NULL;` -/
def dropRecord (w : HRecord) (m : Mem) : C (Option HRecord × Mem) := do
  let m ← recordFree m (some w)
  .ok (none, m)

/-- mbus-protocol-aux.c:1329-1339, 1371-1381: the value of the new record: the text, or the number `x`. -/
def HRecord.setValue (w : HRecord) (s : Option Nat) (size : Int) (x : Flt) : HRecord :=
  match s with
  | some a => { w with numeric := false, text := some a, size := size }
  | none => { w with numeric := true, real := x }

/-- mbus-protocol-aux.c:1243-1251, 1300-1317, 1342-1349: the function text, then `rest`. -/
def functionOwned (fn : List Byte) (w : HRecord) (m : Mem) (rest : HRecord → Mem → C (Option HRecord × Mem)) : C (Option HRecord × Mem) :=
  match m.alloc (fn ++ [0]) with
  | (none, m) => dropRecord w m
  | (some f, m) => rest { w with function := some f } m

/-- mbus-protocol-aux.c:1253-1270: value, unit and quantity of a counter of the fixed data structure. -/
def fixedOwned (status unit : Byte) (d : List Byte) (w : HRecord) (m : Mem) : C (Option HRecord × Mem) := do
  let v ← if status &&& 0x80 = 0x00 then bcdDecode d 4
    else do
      let (_, v) ← longDecode d 4
      .ok v
  let n := fixedNormalize unit.toNat v (.lit 0)
  let (u, q, m) := dupNorm m n
  let w := { w with unit := u, quantity := q, real := n.value }
  if n.code ≠ 0 then dropRecord w m else .ok (some w, m)

/-- mbus-protocol-aux.c:1230-1271 `mbus_parse_fixed_record(status_byte, medium_unit, data)` -/
def parseFixedOwned (status unit : Byte) (d : List Byte) (m : Mem) : C (Option HRecord × Mem) :=
  match recordNew m with
  | (none, m) => .ok (none, m)
  | (some w, m) => functionOwned (fixedFunction status.toNat) w m (fixedOwned status unit d)

/-- mbus-protocol-aux.c:829-1042 `mbus_variable_value_decode` with the allocation of its text (851, 871, 903, 938, 989, 1000, 1019):
NULL makes it return -1. Simplification: the text is stored by the allocation. -/
def valueDecodeOwned (junk : Nat → Byte) (r : Record) (m : Mem) : C (ValOut × Option Nat × Mem) := do
  let o ← variableValueDecode junk r
  match o.str with
  | none => .ok (o, none, m)
  | some s =>
    match m.alloc s with
    | (none, m) => .ok (⟨-1, Flt.ofInt 0, none, 0⟩, none, m)
    | (some a, m) => .ok (o, some a, m)

/-- mbus-protocol-aux.c:1077-1171 `mbus_vib_unit_normalize` with its two `strdup` (1062-1064, 1070-1071, 1124-1125); no text is
allocated when a VIF extension is missing. -/
def normalizeOwned (r : Record) (x : Flt) (m : Mem) : C (Option Norm × Option Nat × Option Nat × Mem) := do
  let n ← vibUnitNormalize r x
  match n with
  | none => .ok (none, none, none, m)
  | some n =>
      let (u, q, m) := dupNorm m n
      .ok (some n, u, q, m)

/-- mbus-protocol-aux.c:1319-1340: the value of a manufacturer specific / more-records-follow record. -/
def specialOwned (junk : Nat → Byte) (r : Record) (w : HRecord) (m : Mem) : C (Option HRecord × Mem) := do
  let (o, s, m) ← valueDecodeOwned junk r m
  if o.code ≠ 0 then dropRecord w m
  else .ok (some (w.setValue s o.size (Flt.ofInt 0)), m)

/-- mbus-protocol-aux.c:1353-1382: value, unit and quantity of any other record. -/
def plainOwned (junk : Nat → Byte) (r : Record) (w : HRecord) (m : Mem) : C (Option HRecord × Mem) := do
  let (o, s, m) ← valueDecodeOwned junk r m
  if o.code ≠ 0 then dropRecord w m
  else do
    let (n, u, q, m) ← normalizeOwned r o.real m
    match n with
    | none => dropRecord { w with unit := u, quantity := q } m
    | some n =>
      if n.code ≠ 0 then dropRecord { w with unit := u, quantity := q } m
      else .ok (some ({ w with unit := u, quantity := q }.setValue s o.size n.value), m)

/-- mbus-protocol-aux.c:1274-1385 `mbus_parse_variable_record(data)`: the record (`none` is NULL) and the heap afterwards. -/
def parseVariableOwned (junk : Nat → Byte) (r : Record) (m : Mem) : C (Option HRecord × Mem) :=
  match recordNew m with
  | (none, m) => .ok (none, m)
  | (some w, m) => do
      let st ← storageNumber r
      let ta ← tariff r
      let dv ← device r
      let w := { w with storage := st, tariff := ta, device := dv }
      if r.dif = 0x0F ∨ r.dif = 0x1F then
        functionOwned (if r.dif = 0x1F then cs! "More records follow" else cs! "Manufacturer specific") w m (specialOwned junk r)
      else functionOwned (recordFunction r) w m (plainOwned junk r)

/-- mbus-protocol-aux.c:1417-1430: room for one more record; `none`: `realloc` failed (the old block stays). The new block number is
fresh, the old one is released. -/
def growOwned (junk : Nat → Byte) (b : XBuf) (p : Nat) (m : Mem) : C (Option (XBuf × Nat) × Mem) :=
  if b.len ≤ b.mem.length ∧ b.mem.length - b.len < 1024 then
    match m.alloc (b.grow junk).mem with
    | (none, m) => .ok (none, m)
    | (some p', m) => do
        let m ← m.free p
        .ok (some (b.grow junk, p'), m)
  else .ok (some (b, p), m)

/-- mbus-protocol-aux.c:1434: `norm_record` may be NULL. -/
def readRecord (m : Mem) : Option HRecord → C (Option NRecord)
  | none => .ok none
  | some w => do
      let n ← w.read m
      .ok (some n)

/-- mbus-protocol-aux.c:1413-1472: the record loop; `p` is the block of the buffer; `none`: the function returns NULL from inside the
loop. -/
def nrecordsOwned (junk : Nat → Nat → Byte) : List Record → Nat → List Byte → XBuf → Nat → Mem → C (Option (XBuf × Nat) × Mem)
  | [], _, _, b, p, m => .ok (some (b, p), m)
  | r :: rs, i, e, b, p, m => do
      let (w, m) ← parseVariableOwned (junk i) r m
      let (g, m) ← growOwned (scratch (junk i) 3) b p m
      match g with
      | none => do
          let m ← recordFree m w
          let m ← m.free p
          .ok (none, m)
      | some (b, p) => do
          let n ← readRecord m w
          let (b, e) ← nrecordXml n i e b
          let m ← recordFree m w
          nrecordsOwned junk rs (i + 1) e b p m

/-- mbus-protocol-aux.c:1390-1480 `mbus_data_variable_xml_normalized(data)`: the block of the returned text (`none`: NULL). -/
def variableXmlNormalizedOwned (junk0 : Nat → Byte) (junk : Nat → Nat → Byte) (v : VarData) (m : Mem) : C (Option Nat × Mem) := do
  match m.alloc (malloc (scratch junk0 3) 8192) with
  | (none, m) => .ok (none, m)
  | (some p, m) => do
      let b : XBuf := ⟨malloc (scratch junk0 3) 8192, 0⟩
      let b ← b.put XML_PI
      let b ← b.put (cs! "<MBusData>\n\n")
      let t ← headerXml junk0 v.header
      let b ← b.put t
      let (g, m) ← nrecordsOwned junk v.records 0 (List.replicate 768 0) b p m
      match g with
      | none => .ok (none, m)
      | some (b, p) => do
          let b ← b.put (cs! "</MBusData>\n")
          .ok (some p, m.store p b.mem)

end Mbus
