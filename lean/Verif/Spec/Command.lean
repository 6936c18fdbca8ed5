import Verif.Model.Bus
import Verif.Spec.Link
import Verif.Spec.Address
/-
Specification of what a command call does to the bus.  `Bus.sent` is the list of byte strings handed to the descriptor.
-/
namespace Mbus.Spec

/-- The call was refused: it returned `e` and nothing at all happened on the bus. -/
def Refused (b : Bus) (e : Int) (res : C (Int × Bus)) : Prop := res = .ok (e, b)

/-- The call wrote exactly one byte string, the wire form of the legal telegram `t`, and reported 0 exactly if the operating
system took all of it (else -1). -/
def Transmitted (env : Env) (b : Bus) (t : Telegram) (res : C (Int × Bus)) : Prop :=
  ∃ r b', res = .ok (r, b') ∧ t.Legal ∧ b'.sent = b.sent ++ [t.wire] ∧
    (r = 0 ∧ env.wret b.sent t.wire.length = t.wire.length ∨ r = -1 ∧ env.wret b.sent t.wire.length ≠ t.wire.length)

/-- CI field of the baud rate switch: B8h .. BFh for 300 .. 38400 baud (EN 13757-3). -/
def baudTable : List (Int × Byte) :=
  [(300, 0xB8), (600, 0xB9), (1200, 0xBA), (2400, 0xBB), (4800, 0xBC), (9600, 0xBD), (19200, 0xBE), (38400, 0xBF)]

/-- the values the options may have -/
def SettingsOk (st : Settings) : Prop :=
  (0 ≤ st.maxDataRetry ∧ st.maxDataRetry ≤ 9) ∧ (0 ≤ st.maxSearchRetry ∧ st.maxSearchRetry ≤ 9) ∧
    (st.purgeFirst = 0 ∨ st.purgeFirst = 1 ∨ st.purgeFirst = 2)

end Mbus.Spec
