import Verif.Model.Unit
/-
Model of the linked structures of mbus/mbus-protocol.c: record lists and frame chains on a heap, the slave register and the error
string.  An address is a natural number, a pointer is an `Option Nat` (`none`: NULL).
Simplifications: one heap per structure type; allocation failure is not modelled; the loops carry fuel, and the theorems hold
for every sufficient amount.
-/
namespace Mbus

/-- An object on the heap: never allocated, released, or allocated with its `next` pointer and the other fields. -/
inductive Cell (α : Type) where
  | unused
  | freed
  | live (next : Option Nat) (val : α)
  deriving DecidableEq

/-- The heap. -/
abbrev Heap (α : Type) := Nat → Cell α

/-- Heap with one object replaced. -/
def Heap.put {α : Type} (h : Heap α) (a : Nat) (c : Cell α) : Heap α := fun b => if b = a then c else h b

/-- Reading an object. -/
def Heap.load {α : Type} (h : Heap α) (a : Nat) : C (Option Nat × α) :=
  match h a with
  | .live n v => .ok (n, v)
  | _ => .error .useAfterFree

/-- `p->next = q` -/
def Heap.link {α : Type} (h : Heap α) (a : Nat) (q : Option Nat) : C (Heap α) := do
  let (_, v) ← h.load a
  .ok (h.put a (.live q v))

/-- `free(p)` -/
def Heap.free {α : Type} (h : Heap α) (a : Nat) : C (Heap α) :=
  match h a with
  | .live _ _ => .ok (h.put a .freed)
  | _ => .error .doubleFree

/-- mbus-protocol.c:5120-5134 `mbus_data_record_new()` (and 127-173 for frames): `a` is the address `malloc` returns; the fields
are `v`, `next` is NULL. -/
def Heap.new {α : Type} (h : Heap α) (a : Nat) (v : α) : Heap α := h.put a (.live none v)

/-- mbus-protocol.c:5140-5152 `mbus_data_record_free(record)` -/
def recordListFree {α : Type} : Nat → Heap α → Option Nat → C (Heap α)
  | _, h, none => .ok h
  | 0, _, some _ => .error .outOfFuel
  | fuel + 1, h, some a => do
      let (next, _) ← h.load a
      let h ← h.free a
      match next with
      | none => .ok h
      | some n => recordListFree fuel h (some n)

/-- mbus-protocol.c:5170: `for (iter = data->record; iter->next; iter = iter->next);` -/
def lastRecord {α : Type} : Nat → Heap α → Nat → C Nat
  | 0, _, _ => .error .outOfFuel
  | fuel + 1, h, a => do
      let (next, _) ← h.load a
      match next with
      | none => .ok a
      | some n => lastRecord fuel h n

/-- mbus-protocol.c:5157-5176 `mbus_data_record_append(data, record)` for `data != NULL`; `root` is `data->record`; result: heap and
new `data->record`. -/
def recordAppend {α : Type} (fuel : Nat) (h : Heap α) (root record : Option Nat) : C (Heap α × Option Nat) :=
  match record with
  | none => .ok (h, root)
  | some p =>
    match root with
    | none => .ok (h, some p)
    | some a => do
        let last ← lastRecord fuel h a
        let h ← h.link last (some p)
        .ok (h, root)

/-- mbus-protocol.c:178-190 `mbus_frame_free(frame)`: heap and return value. -/
def frameFree {α : Type} : Nat → Heap α → Option Nat → C (Heap α × Int)
  | _, h, none => .ok (h, -1)
  | 0, _, some _ => .error .outOfFuel
  | fuel + 1, h, some a => do
      let (next, _) ← h.load a
      let h ← match next with
        | none => .ok h
        | some n => do
            let (h, _) ← frameFree fuel h (some n)
            .ok h
      let h ← h.free a
      .ok (h, 0)

/-- mbus-protocol.c:5101-5113 `mbus_frame_data_free(data)`: `d` is the heap of the `mbus_frame_data` structures (its values are the
`data_var.record` pointers), `h` the heap of records. -/
def frameDataFree {α : Type} (fuel : Nat) (d : Heap (Option Nat)) (h : Heap α) (data : Option Nat) : C (Heap (Option Nat) × Heap α) :=
  match data with
  | none => .ok (d, h)
  | some a => do
      let (_, root) ← d.load a
      let h ← match root with
        | none => .ok h
        | some r => recordListFree fuel h (some r)
      let d ← d.free a
      .ok (d, h)

/-- mbus-protocol.h:100-105: two `int`s. -/
def SLAVE_DATA_SIZE : Nat := 8

/-- mbus-protocol.c:106-115 `mbus_slave_data_get(i)`: byte address of the entry, if `base` is the address of `slave_data`. -/
def slaveDataGet (base i : Nat) : Option Nat :=
  if i < MAX_PRIMARY_SLAVES then some (base + SLAVE_DATA_SIZE * i) else none

/-- mbus-protocol.c:19: `static char error_str[512]` (zero-initialised). -/
def errorStrInit : List Byte := List.replicate 512 0

/-- mbus-protocol.c:87-94 `mbus_error_str_set(message)`; `message` is the memory the pointer refers to (not `error_str` itself), `none`
is NULL. -/
def errorStrSet (e : List Byte) (message : Option (List Byte)) : C (List Byte) :=
  match message with
  | none => .ok e
  | some m => do
      let s ← cstr m
      snprintfAt e 0 e.length s

/-- mbus-protocol.c:96-100 `mbus_error_reset()` -/
def errorReset (e : List Byte) : C (List Byte) := snprintfAt e 0 e.length (cs! "no errors")

/-- mbus-protocol.c:81-85 `mbus_error_str()`: the C string behind the returned pointer. -/
def errorStr (e : List Byte) : C (List Byte) := cstr e

end Mbus
