import Verif.Model.Owned
/-
Specification vocabulary for C101, C102: which heap blocks a normalised record consists of, and what a call did to the heap.
-/
namespace Mbus.Spec

/-- A heap as the allocator keeps it: no block is listed twice, fresh blocks are new. -/
def MemOk (m : Mem) : Prop := (m.live.map (·.1)).Nodup ∧ ∀ x ∈ m.live, x.1 < m.next

/-- `m'` is `m` with the additional blocks `news`, all of them new; nothing of `m` was changed or released. -/
structure Grown (m m' : Mem) (news : List (Nat × List Byte)) : Prop where
  live : m'.live = news ++ m.live
  old : ∀ x ∈ news, m.next ≤ x.1
  nodup : (news.map (·.1)).Nodup
  young : ∀ x ∈ news, x.1 < m'.next
  next : m.next ≤ m'.next

/-- The blocks of a record: itself and its texts. -/
def ownBlocks (w : HRecord) : List Nat :=
  w.self :: ((if w.numeric then [] else w.text.toList) ++ (w.unit.toList ++ (w.function.toList ++ w.quantity.toList)))

/-- `n` is the record `full`, except that it may lack the unit text or the quantity text. -/
def Lacking (full n : NRecord) : Prop :=
  n.value = full.value ∧ n.function = full.function ∧ n.device = full.device ∧ n.tariff = full.tariff ∧ n.storage = full.storage ∧
  (n.unit = full.unit ∨ n.unit = none) ∧ (n.quantity = full.quantity ∨ n.quantity = none)

/-- The operating system grants every further allocation. -/
def Granting (m : Mem) : Prop := ∀ b ∈ m.answers, b = true

/-- What a parse call hands out, compared with the record `x` and the lost text `leak` it produces when memory is plentiful: `news` are
the blocks it left behind. -/
def Handed (x : Option NRecord) (leak : Option (List Byte)) (res : Option HRecord) (m' : Mem) (news : List (Nat × List Byte)) : Prop :=
  match res with
  | none => news = [] ∨ (x = none ∧ ∃ a s, leak = some s ∧ news = [(a, s)])
  | some w => (ownBlocks w).Perm (news.map (·.1)) ∧ ∃ full n, x = some full ∧ w.read m' = .ok n ∧ Lacking full n

/-- The same when every allocation is granted: exactly the record and the lost text. -/
def HandedAll (x : Option NRecord) (leak : Option (List Byte)) (res : Option HRecord) (m' : Mem) (news : List (Nat × List Byte)) : Prop :=
  match x with
  | none => res = none ∧ news.map (·.2) = leak.toList
  | some full => ∃ w, res = some w ∧ w.read m' = .ok full

/-- What is printed for a record that gives `full` when memory is plentiful: nothing, or the record, possibly without unit or quantity. -/
def Printed (full n : Option NRecord) : Prop := n = none ∨ ∃ f g, full = some f ∧ n = some g ∧ Lacking f g

/-- What may be shown of a record `r` when allocations fail. -/
def ShownAs (r : Record) (n : Option NRecord) : Prop := ∃ j full leak, parseVariableRecord j r = .ok (full, leak) ∧ Printed full n

end Mbus.Spec
