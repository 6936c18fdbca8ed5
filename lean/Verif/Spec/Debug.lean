import Verif.Model.Tools
import Verif.Spec.Print
/-
Option -d of the tools: "Enable debug output" (bin/libmbus.pod).
-/
namespace Mbus.Spec

/-- the second output is the first one with lines of debug output inserted -/
inductive Annotated : List Line → List Line → Prop
  | nil : Annotated [] []
  | same {a b : List Line} (l : Line) : Annotated a b → Annotated (l :: a) (l :: b)
  | note {a b : List Line} (t : List Byte) : Annotated a b → Annotated a (.note t :: b)
  | dump {a b : List Line} (fs : List Frame) : Annotated a b → Annotated a (.chain fs :: b)

/-- both programs run into the same fault, or both end and their results are related -/
def Alike {α β : Type} (R : α → β → Prop) : C α → C β → Prop
  | .ok a, .ok b => R a b
  | .error e, .error e' => e = e'
  | _, _ => False

/-- same status, same state of the bus, same output up to debug output, which is printed only with -d -/
def Verbose {σ : Type} (d : Bool) (e e' : Exit σ) : Prop :=
  e'.code = e.code ∧ e'.state = e.state ∧ Annotated e.out e'.out ∧ (d = false → e' = e)

/-- only with -d -/
def ifDebug (d : Bool) (text : List Byte) : List Byte := if d then text else []

/-- what the reset of the meters prints with -d -/
def resetNotes (d : Bool) : List Byte :=
  ifDebug d (cs! "init_slaves: debug: sending init frame #1\ninit_slaves: debug: sending init frame #2\n")

/-- what is printed about a telegram received: its bytes, if it has not more than 256 bytes -/
def telegramDump (t : Telegram) : List Byte := if t.wire.length ≤ 256 then telegramLine t else dumpLine t.kind (-4) []

/-- what a scan prints about address `a` with -d: the address for each transmission, then the result -/
def scanNotes (d : Bool) (tries : Nat) (addrs : List Byte) (a : Nat) : List Byte :=
  ifDebug d (List.replicate (if UInt8.ofNat a ∈ addrs then 1 else tries) (decDigits a ++ cs! " ")).flatten

end Mbus.Spec
