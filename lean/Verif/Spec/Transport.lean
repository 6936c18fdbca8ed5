import Verif.Model.Transport
import Verif.Spec.Link
/-
Specification vocabulary for the transports: which bytes a script of `read` results delivers.  (Shares only the event
type with the model.)
-/
namespace Mbus.Spec

/-- `Feeds skip k es bs es'`: reading on, the script `es` yields exactly the bytes `bs` in chunks of any size, interrupted
by exactly `k` occurrences of the harmless event `skip`, and leaves the script `es'` (the last chunk possibly cut). -/
inductive Feeds (skip : Ev) : Nat → List Ev → List Byte → List Ev → Prop
  | done (es : List Ev) : Feeds skip 0 es [] es
  | skip {k es bs es'} : bs ≠ [] → Feeds skip k es bs es' → Feeds skip (k + 1) (skip :: es) bs es'
  | whole {k es bs es'} (c : List Byte) : c ≠ [] → Feeds skip k es bs es' → Feeds skip k (.data c :: es) (c ++ bs) es'
  | part (c d : List Byte) (es : List Ev) : c ≠ [] → d ≠ [] → Feeds skip 0 (.data (c ++ d) :: es) c (.data d :: es)

/-- These bytes do not contain a whole telegram at their start. -/
def NoTelegram (bs : List Byte) : Prop := ∀ t : Telegram, t.Legal → ¬ (t.wire <+: bs)

/-- No telegram starts like this. -/
def Hopeless (bs : List Byte) : Prop := ∀ t : Telegram, t.Legal → ¬ (bs <+: t.wire)

/-- the read events for these chunks -/
def evs (cs : List (List Byte)) : List Ev := cs.map .data

/-- no chunk is empty -/
def Chunks (cs : List (List Byte)) : Prop := ∀ c ∈ cs, c ≠ []

end Mbus.Spec
