import Verif.Model.Process
/-
Specification for processes with several handles: what a handle would do if the process had only this one.
-/
namespace Mbus.Spec

/-- the part of a schedule, or of its results, that belongs to handle `i` -/
def own {α : Type} (i : Nat) (l : List (Nat × α)) : List α := (l.filter (·.1 = i)).map (·.2)

/-- calls on a single handle, one after the other, with their results (`Mbus.Call.exec`: one call on one handle, no shared memory) -/
def alone {σ : Type} (l : Link σ) (h : Settings × σ) : List Call → C (List Outcome × Settings × σ)
  | [] => .ok ([], h)
  | c :: cs => do
    let (out, h) ← c.exec l h
    let (outs, h) ← alone l h cs
    .ok (out :: outs, h)

/-- a line on stderr without what it quotes: the function and the text up to the first colon (texts without a colon: the whole text) -/
def unquoted (n : Note) : List Byte × List Byte := (n.fn, n.text.takeWhile (· ≠ 58))

end Mbus.Spec
