import Verif.Model.Lifecycle
/-
Specification vocabulary for C83-C86: histories of one handle in a process that opens and closes descriptors of its own.
-/
namespace Mbus
namespace Spec

/-- What can happen: the application connects or disconnects the handle, or other code opens / closes a descriptor of its own. -/
inductive Event where
  | connect (a : OsAnswer)
  | disconnect
  | otherOpen (d : Int)
  | otherClose (d : Int)

/-- Descriptors opened through the handle / by anything else. -/
def mine (p : Proc) : List Int := (p.fds.filter (·.2)).map (·.1)
def others (p : Proc) : List Int := (p.fds.filter fun x => !x.2).map (·.1)

/-- The application's knowledge: no connection attempt so far; the last attempt was refused; connected; disconnected. -/
inductive Phase where
  | never | refused | up | down
  deriving DecidableEq

/-- The operating system hands out descriptors that are not open. -/
def Fresh (p : Proc) (d : Int) : Prop := 0 ≤ d ∧ ∀ x ∈ p.fds, x.1 ≠ d
def AnswerOk (p : Proc) (a : OsAnswer) : Prop :=
  (0 ≤ a.dev → Fresh p a.dev) ∧ ∀ x ∈ a.socks, ∀ d ok, x = some (d, ok) → Fresh p d

/-- Histories: connect only when not connected; disconnect only when connected or already disconnected, on a serial handle also after
a refused attempt. Results decide the next phase. -/
inductive History : Phase → Hnd → Proc → List Event → Phase → Hnd → Proc → Prop
  | nil {ph h p} : History ph h p [] ph h p
  | connect {ph h p a r h' p' es ph' h'' p''} : ph ≠ .up → AnswerOk p a → connect h a p = (r, h', p') →
      History (if r = 0 then .up else .refused) h' p' es ph' h'' p'' → History ph h p (.connect a :: es) ph' h'' p''
  | disconnect {ph h p r h' p' es ph' h'' p''} : (ph = .up ∨ ph = .down ∨ ph = .refused ∧ h.serial) → disconnect h p = (r, h', p') →
      History (if r = 0 then .down else ph) h' p' es ph' h'' p'' → History ph h p (.disconnect :: es) ph' h'' p''
  | otherOpen {ph h p d es ph' h' p'} : Fresh p d →
      History ph h { p with fds := (d, false) :: p.fds } es ph' h' p' → History ph h p (.otherOpen d :: es) ph' h' p'
  | otherClose {ph h p d es ph' h' p'} : d ∈ others p →
      History ph h { p with fds := p.fds.filter fun x => decide (x.1 ≠ d) } es ph' h' p' →
      History ph h p (.otherClose d :: es) ph' h' p'

/-- What other code has open after the events, if the library never interferes. -/
def undisturbed : List Int → List Event → List Int
  | ds, [] => ds
  | ds, .otherOpen d :: es => undisturbed (d :: ds) es
  | ds, .otherClose d :: es => undisturbed (ds.filter (· ≠ d)) es
  | ds, _ :: es => undisturbed ds es

/-- A process state as the operating system keeps it: no descriptor listed twice, blocks older than the next one. -/
def ProcOk (p : Proc) : Prop := (p.fds.map (·.1)).Nodup ∧ ∀ a ∈ p.live, a < p.next

/-- EN 13757-2: an answer begins at most 330 bit times + 50 ms after the request; the library adds 11 bit times for the first byte
and 100 ms for USB adapters (mbus-serial.c:75-84). `Covers baud t`: waiting `t` tenths of a second is long enough. -/
def Covers (baud : Int) (t : Nat) : Prop := (341 : Rat) / baud + 15 / 100 ≤ (t : Rat) / 10

end Spec
end Mbus
