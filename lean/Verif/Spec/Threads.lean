import Verif.Model.Threads
import Verif.Spec.Statics
/-
Several threads that use the functions returning texts in static memory: interleaving of their byte accesses, data races, and which functions may run at the same time.
-/
namespace Mbus.Spec

/-- The next access of a piece of code: store or load, array, index. -/
def nextAccess {α : Type} : Prog α → Option (Bool × SBuf × Nat)
  | .done _ | .fault _ => none
  | .load b i _ => some (false, b, i)
  | .store b i _ _ => some (true, b, i)

/-- One access on the shared memory; an index outside the array and a reached fault are undefined behaviour. -/
def oneStep {α : Type} : Prog α → Statics → C (Prog α × Statics)
  | .done a, s => .ok (.done a, s)
  | .fault f, _ => .error f
  | .load b i k, s => if i < b.cap then .ok (k ((s b).getD i 0), s) else .error (.oobRead b.cap i)
  | .store b i v k, s => if i < b.cap then .ok (k, s.set b ((s b).set i v)) else .error (.oobWrite b.cap i)

/-- The threads (by number) and the memory they share. -/
structure Threads (α : Type) where
  mem : Statics
  code : Nat → Prog α

/-- Thread `i` makes one access. -/
def Threads.move {α : Type} (t : Threads α) (i : Nat) : C (Threads α) := do
  let (p, s) ← oneStep (t.code i) t.mem
  .ok ⟨s, fun j => if j = i then p else t.code j⟩

/-- A schedule: the threads that make the successive accesses. -/
def Threads.run {α : Type} (t : Threads α) : List Nat → C (Threads α)
  | [] => .ok t
  | i :: sched => do
      let t ← t.move i
      t.run sched

/-- A data race (C11 5.1.2.4): two threads are about to access the same byte, at least one of them storing.  Undefined behaviour in C. -/
def Threads.Race {α : Type} (t : Threads α) : Prop :=
  ∃ i j : Nat, i ≠ j ∧ ∃ (w v : Bool) (b : SBuf) (k : Nat), nextAccess (t.code i) = some (w, b, k) ∧ nextAccess (t.code j) = some (v, b, k) ∧ (w = true ∨ v = true)

/-- A call as a sequence of accesses. -/
def TextCall.prog : TextCall → Prog Ptr
  | .manufacturer b1 b2 => pManufacturer b1 b2
  | .product h => pProduct h
  | .fixedMedium x => pPlain .fixedMedium (fixedMediumText x)
  | .fixedUnit u => pPlain .fixedUnit (fixedUnitText u)
  | .medium m => pPlain .medium (mediumText m)
  | .unitPrefix e => pPrefix e
  | .vif v => pVif v
  | .error e => pPlain .error (errorText e)
  | .vib r => pVib r
  | .decode r => pDecode r
  | .unit r => pUnit r
  | .value r => pValue r
  | .function r => pPlain .function (recordFunctionText r)
  | .fixedFunction st => pPlain .fixedFunction (fixedFunctionText st)
  | .headerXml e h => pHeaderXml e h
  | .recordXml e r stamp cnt frame => pRecordXml e r stamp cnt frame
  | .address f => pAddress f

/-- Call and read the text at once (`strdup(f(...))`, or print it); `none` for NULL. -/
def TextCall.fetch (c : TextCall) : Prog (Option (List Byte)) := do
  match ← c.prog with
  | .null => .done none
  | p => do
      let t ← pRead p
      .done (some t)

/-- A thread: a list of calls whose texts it collects. -/
def fetchAll : List TextCall → Prog (List (Option (List Byte)))
  | [] => .done []
  | c :: cs => do
      let t ← c.fetch
      let ts ← fetchAll cs
      .done (t :: ts)

/-- The texts it should get. -/
def textsOf : List TextCall → C (List (Option (List Byte)))
  | [] => .ok []
  | c :: cs => do
      let t ← c.text
      let ts ← textsOf cs
      .ok (t :: ts)

/-- The families of functions that share memory. -/
def families : List (List TextKind) :=
  [[.manufacturer, .headerXml], [.product, .headerXml], [.medium, .headerXml], [.unitPrefix, .vif, .vib, .unit, .recordXml], [.decode, .value, .recordXml], [.function, .recordXml],
   [.fixedMedium], [.fixedUnit], [.error], [.fixedFunction], [.address]]

/-- Two functions must not be used by two threads at the same time. -/
def Related (k d : TextKind) : Prop := ∃ f ∈ families, k ∈ f ∧ d ∈ f

end Mbus.Spec
