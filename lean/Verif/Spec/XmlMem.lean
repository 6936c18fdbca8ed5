import Verif.Model.XmlMem
import Verif.Spec.SessionMem
import Verif.Spec.Document
/-
Specification vocabulary for C109: what an XML function did to the heap.
-/
namespace Mbus
open Spec

/-- What a call that gives the document `doc tss` when memory is plentiful does when it may run out: it returns NULL and leaves the heap
as it was, or it returns one new block with the document of the first records of each telegram, and leaves nothing else behind.  When
every allocation is granted, the document is complete. -/
def Excerpt (m : Mem) (doc : List (List Item) → List Byte) (tss : List (List Item)) (r : Option Nat × Mem) : Prop :=
  (r.1 = none ∧ Grown m r.2 [] ∧ ¬ Granting m) ∨
  ∃ q c tss', r.1 = some q ∧ Grown m r.2 [(q, c)] ∧ Pointwise (fun a b => a <+: b) tss' tss ∧ (Granting m → tss' = tss ∧ Granting r.2) ∧ doc tss' ++ [0] <+: c

/-- With every allocation granted, `y` did on the heap what `x` describes: same text or same failure, same leaks. -/
def Agrees (m0 : Mem) (x : C XmlOut) (y : C (Option Nat × Mem)) : Prop :=
  match x with
  | .error e => y = .error e
  | .ok o => ∃ r m' news, y = .ok (r, m') ∧ Grown m0 m' news ∧ Granting m' ∧
      match o.text with
      | some c => ∃ q, r = some q ∧ news = [(q, c)]
      | none => r = none ∧ news.length = (if o.lostBuffer then 1 else 0) + o.lostRecords.length

end Mbus
