import Verif.Model.Heap
/- Specification vocabulary for linked structures (shares only the heap type). -/
namespace Mbus.Spec

/-- The objects `xs` (address and fields), linked in this order, are what the pointer `p` leads to; the last one points to NULL. -/
inductive Linked {α : Type} (h : Heap α) : Option Nat → List (Nat × α) → Prop
  | nil : Linked h none []
  | cons {a : Nat} {v : α} {next : Option Nat} {xs : List (Nat × α)} : h a = .live next v → Linked h next xs → Linked h (some a) ((a, v) :: xs)

/-- `h'` differs from `h` in the objects of `as` at most. -/
def SameOutside {α : Type} (h h' : Heap α) (as : List Nat) : Prop := ∀ a, a ∉ as → h' a = h a

/-- `h'` is `h` with exactly the objects of `as` released. -/
def Released {α : Type} (h h' : Heap α) (as : List Nat) : Prop := (∀ a ∈ as, h' a = .freed) ∧ SameOutside h h' as

/-- A step of building a record list: `malloc` returned the address `a`, which is not in use, the record got the fields `v`, and was
appended. -/
inductive Built {α : Type} : Heap α → Option Nat → List (Nat × α) → Prop
  | empty (h : Heap α) : Built h none []
  | append {h : Heap α} {root : Option Nat} {xs : List (Nat × α)} {h' : Heap α} {root' : Option Nat} (a : Nat) (v : α) (fuel : Nat) :
      Built h root xs → (∀ n w, h a ≠ .live n w) → recordAppend fuel (h.new a v) root (some a) = .ok (h', root') →
      Built h' root' (xs ++ [(a, v)])

/-- What a call does to the error string. -/
inductive ErrorCall where
  | set (message : List Byte)
  | setNull
  | reset

/-- Performs one call on the 512-byte error string. -/
def runError (e : List Byte) : ErrorCall → C (List Byte)
  | .set m => errorStrSet e (some (m ++ [0]))
  | .setNull => errorStrSet e none
  | .reset => errorReset e

/-- The text the error string must have after a history of calls (last call last): the most recent message, cut to 511 characters. -/
def lastMessage (start : List Byte) : List ErrorCall → List Byte
  | [] => start
  | .set m :: cs => lastMessage (m.take 511) cs
  | .setNull :: cs => lastMessage start cs
  | .reset :: cs => lastMessage (cs! "no errors") cs

end Mbus.Spec
