import Verif.Spec.Scan
/-
Specification for C125: a bus on which the answer to a selection (or the selection itself) may get lost.
-/
namespace Mbus.Spec

/-- The bus with the meters `devs`, on which selections get lost: a selection is answered with silence, or as on a bus that
answers faithfully (`Faithful`).  It is not lost if the `losses` telegrams before were the same selection: never more than `losses`
selections in a row are lost.  The request that follows an answered selection is answered as on a faithful bus. -/
structure Lossy (losses : Nat) (devs : List Device) (env : Env) : Prop where
  selection : ∀ sent sel, sel.length = 8 → ∃ cs, Chunks cs ∧ env.respond (sent ++ [selectionWire sel]) = evs cs ∧
    (cs = [] ∧ ¬ List.replicate losses (selectionWire sel) <:+ sent ∨
      match devs.filter (fun d => selects sel d.address) with
      | [] => cs.flatten = []
      | [_] => cs.flatten = [0xE5]
      | _ => (∃ rest, cs.flatten = 0xE5 :: rest) ∨ Garbled cs.flatten)
  request : ∀ sent sel, sel.length = 8 → env.respond (sent ++ [selectionWire sel]) ≠ [] →
    ∃ cs, Chunks cs ∧ env.respond (sent ++ [selectionWire sel] ++ [requestWire]) = evs cs ∧
    match devs.filter (fun d => selects sel d.address) with
    | [] => cs.flatten = []
    | [d] => cs.flatten = d.telegram.wire
    | _ => Garbled cs.flatten

/-- The bus with the one meter `d`, on which nothing but the first data the meter sends is lost: every selection is answered, and
every request but the first. -/
structure LosesFirstData (d : Device) (env : Env) : Prop where
  selection : ∀ sent sel, sel.length = 8 → ∃ cs, Chunks cs ∧ env.respond (sent ++ [selectionWire sel]) = evs cs ∧
    cs.flatten = if selects sel d.address then [0xE5] else []
  first : ∀ sent sel, sel.length = 8 → requestWire ∉ sent → env.respond (sent ++ [selectionWire sel] ++ [requestWire]) = []
  later : ∀ sent sel, sel.length = 8 → requestWire ∈ sent → ∃ cs, Chunks cs ∧ env.respond (sent ++ [selectionWire sel] ++ [requestWire]) = evs cs ∧
    cs.flatten = if selects sel d.address then d.telegram.wire else []

end Mbus.Spec
