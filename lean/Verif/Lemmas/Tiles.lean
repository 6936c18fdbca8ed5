import Verif.Lemmas.Record
import Verif.Spec.Deliver
/- The record loop against the record grammar. -/
namespace Mbus
open Spec

theorem pChain_sound (room : Nat) (b : Byte) (l xs rest : List Byte) (h : pChain room b l = some (xs, rest)) :
    Chain b xs ∧ l = xs ++ rest ∧ xs.length ≤ room := by
  induction room generalizing b l xs with
  | zero =>
    rw [pChain] at h
    split at h
    · simp at h
    · simp at h; obtain ⟨rfl, rfl⟩ := h; exact ⟨by unfold Chain; omega, rfl, Nat.le_refl _⟩
  | succ room ih =>
    by_cases hb : 128 ≤ b.toNat
    · cases l with
      | nil => rw [pChain_nil _ _ hb] at h; simp at h
      | cons x l =>
        rw [pChain_cons _ _ _ _ hb] at h
        cases hp : pChain room x l with
        | none => rw [hp] at h; simp at h
        | some q =>
          obtain ⟨ys, r⟩ := q
          rw [hp] at h
          simp at h
          obtain ⟨rfl, rfl⟩ := h
          obtain ⟨h1, h2, h3⟩ := ih x l ys hp
          exact ⟨⟨hb, h1⟩, by rw [h2]; rfl, by simp; omega⟩
    · rw [pChain_stop _ _ _ hb] at h
      simp at h; obtain ⟨rfl, rfl⟩ := h; exact ⟨by unfold Chain; omega, rfl, by simp⟩

theorem pChain_complete (room : Nat) (b : Byte) (xs rest : List Byte) (h : Chain b xs) (hl : xs.length ≤ room) :
    pChain room b (xs ++ rest) = some (xs, rest) := by
  induction xs generalizing room b with
  | nil => unfold Chain at h; exact pChain_stop _ _ _ (by omega)
  | cons x xs ih =>
    unfold Chain at h
    cases room with
    | zero => simp at hl
    | succ room =>
      rw [List.cons_append, pChain_cons _ _ _ _ h.1, ih room x h.2 (by simp at hl; omega)]
      rfl

theorem toNat_len (n : Nat) (h : n ≤ 255) : (UInt8.ofNat n).toNat = n := UInt8.toNat_ofNat_of_lt' (show _ < 256 by omega)

theorem pText_sound (vif : Byte) (l text rest : List Byte) (h : pText vif l = .ok (some (text, rest))) :
    text.length ≤ 127 ∧ (¬ PlainText vif → text = []) ∧
      l = (if PlainText vif then UInt8.ofNat text.length :: text else []) ++ rest := by
  unfold pText at h
  by_cases hv : PlainText vif
  · rw [if_pos hv] at h ⊢
    cases l with
    | nil => simp at h
    | cons n l =>
      simp only at h
      by_cases h1 : n.toNat ≤ 128 ∧ n.toNat ≤ l.length
      · rw [if_pos h1] at h
        by_cases h2 : n.toNat = 128
        · rw [if_pos h2] at h; simp at h
        · rw [if_neg h2] at h
          simp at h
          obtain ⟨rfl, rfl⟩ := h
          have hlen : (l.take n.toNat).length = n.toNat := by simp; omega
          refine ⟨by omega, fun h => absurd hv h, ?_⟩
          rw [hlen]; simp
      · rw [if_neg h1] at h; simp at h
  · rw [if_neg hv] at h ⊢
    simp at h
    obtain ⟨rfl, rfl⟩ := h
    exact ⟨by simp, fun _ => rfl, rfl⟩

theorem pText_complete (vif : Byte) (text rest : List Byte) (h : text.length ≤ 127) (h2 : ¬ PlainText vif → text = []) :
    pText vif ((if PlainText vif then UInt8.ofNat text.length :: text else []) ++ rest) = .ok (some (text, rest)) := by
  unfold pText
  by_cases hv : PlainText vif
  · simp only [if_pos hv, List.cons_append]
    rw [toNat_len _ (by omega), if_pos (by simp; omega), if_neg (by omega), List.take_left' rfl, List.drop_left' rfl]
  · simp [hv, h2 hv]

theorem pRec_sound (p : List Byte) (r : Rec) (rest : List Byte) (hf : p.head? ≠ some 0x2F) (h : pRec p = .ok (some (r, rest))) :
    r.Legal ∧ p = r.encode ++ rest ∧
      ((∃ dif data, r = .special dif data ∧ rest = []) ∨ ∃ a b c e f g, r = .value a b c e f g) := by
  cases p with
  | nil => simp [pRec] at h
  | cons dif l =>
    rw [pRec] at h
    by_cases hsp : dif = 0x0F ∨ dif = 0x1F
    · rw [if_pos hsp] at h
      split at h
      · simp at h
        obtain ⟨rfl, rfl⟩ := h
        rename_i hl
        exact ⟨⟨hsp, hl⟩, by simp [Rec.encode], .inl ⟨_, _, rfl, rfl⟩⟩
      · simp at h
    · rw [if_neg hsp] at h
      cases hp : pChain 10 dif l with
      | none => rw [hp] at h; simp at h
      | some q =>
        obtain ⟨difes, l1⟩ := q
        rw [hp] at h
        cases l1 with
        | nil => simp at h
        | cons vif l1 =>
          simp only at h
          cases ht : pText vif l1 with
          | error e => rw [ht] at h; simp at h
          | ok o =>
            rw [ht] at h
            simp only [ok_bind] at h
            cases o with
            | none => simp at h
            | some q =>
              obtain ⟨text, l2⟩ := q
              simp only at h
              cases hp2 : pChain 10 vif l2 with
              | none => rw [hp2] at h; simp at h
              | some q =>
                obtain ⟨vifes, l3⟩ := q
                rw [hp2] at h
                simp only at h
                cases hl : pLen dif l3 with
                | none => rw [hl] at h; simp at h
                | some len =>
                  rw [hl] at h
                  simp only at h
                  by_cases hfit : len ≤ l3.length
                  · rw [if_pos hfit] at h
                    simp at h
                    obtain ⟨rfl, rfl⟩ := h
                    obtain ⟨c1, c2, c3⟩ := pChain_sound _ _ _ _ _ hp
                    obtain ⟨t1, t2, t3⟩ := pText_sound _ _ _ _ ht
                    obtain ⟨v1, v2, v3⟩ := pChain_sound _ _ _ _ _ hp2
                    refine ⟨⟨fun h => hsp (.inl h), fun h => hsp (.inr h), ?_, c1, c3, v1, v3, t1, t2, ?_⟩, ?_, .inr ⟨_, _, _, _, _, _, rfl⟩⟩
                    · intro h; apply hf; rw [h]; rfl
                    · unfold DataFits
                      unfold pLen at hl
                      by_cases hvl : dif.toNat % 16 = 0xD
                      · rw [if_pos hvl] at hl ⊢
                        cases l3 with
                        | nil => simp at hl
                        | cons b l4 =>
                          simp at hl
                          subst hl
                          refine ⟨b, l4.take (lvarBytes b), by simp, ?_⟩
                          simp at hfit; simp; omega
                      · rw [if_neg hvl] at hl ⊢
                        simp at hl
                        subst hl
                        simp; omega
                    · rw [c2, t3, v2]
                      simp [Rec.encode]
                  · rw [if_neg hfit] at h; simp at h

theorem pRec_complete_value (dif : Byte) (difes : List Byte) (vif : Byte) (text vifes data rest : List Byte)
    (h : (Rec.value dif difes vif text vifes data).Legal) :
    pRec ((Rec.value dif difes vif text vifes data).encode ++ rest) =
      .ok (some (.value dif difes vif text vifes data, rest)) := by
  obtain ⟨a1, a2, a3, a4, a5, a6, a7, a8, a9, a10⟩ := h
  have e : (Rec.value dif difes vif text vifes data).encode ++ rest = dif :: (difes ++ (vif ::
      ((if PlainText vif then UInt8.ofNat text.length :: text else []) ++ (vifes ++ (data ++ rest))))) := by
    simp [Rec.encode]
  rw [e, pRec, if_neg (by simp [a1, a2]), pChain_complete _ _ _ _ a4 a5]
  simp only
  rw [pText_complete vif text _ a8 a9]
  simp only [ok_bind]
  rw [pChain_complete _ _ _ _ a6 a7]
  simp only
  have hl : pLen dif (data ++ rest) = some data.length := by
    unfold pLen
    unfold DataFits at a10
    by_cases hvl : dif.toNat % 16 = 0xD
    · rw [if_pos hvl] at a10 ⊢
      obtain ⟨lv, r, rfl, hr⟩ := a10
      simp [hr]
    · rw [if_neg hvl] at a10 ⊢
      rw [a10]
  rw [hl]
  simp only
  rw [if_pos (by simp), List.take_left' rfl, List.drop_left' rfl]

/-! ### the loop -/

/-- the DIF byte of a record -/
def difOf : Rec → Byte
  | .special d _ => d
  | .value d _ _ _ _ _ => d

/-- effect of the records `rs` on the data structure -/
def addRecs (v : VarData) (rs : List Rec) : VarData :=
  { v with
    records := v.records ++ rs.map mkRec
    nrecords := v.nrecords + rs.length
    more := if rs.any (fun r => difOf r == 0x1F) then 1 else v.more }

theorem addRecs_nil (v : VarData) : addRecs v [] = v := by simp [addRecs]

theorem addRecs_cons (v : VarData) (r : Rec) (rs : List Rec) :
    addRecs v (r :: rs) =
      addRecs { v with
                records := v.records ++ [mkRec r]
                nrecords := v.nrecords + 1
                more := if difOf r = 0x1F then 1 else v.more } rs := by
  unfold addRecs
  simp only [List.map_cons, List.append_assoc, List.singleton_append, List.length_cons, List.any_cons, VarData.mk.injEq,
    true_and]
  refine ⟨by omega, ?_⟩
  by_cases h : difOf r = 0x1F <;> simp [h]

theorem encode_head (r : Rec) : ∃ l, r.encode = difOf r :: l := by
  cases r <;> exact ⟨_, rfl⟩

theorem varLoop_sound (d : Buf 252) (size : Nat) (hs : size ≤ 252) (fuel i : Nat) (v v' : VarData)
    (h : varLoop d size fuel i v = .ok (0, v')) :
    ∃ rs, Tiles (tail d size i) rs ∧ v' = addRecs v rs := by
  induction fuel generalizing i v with
  | zero =>
    rw [varLoop] at h
    split at h
    · simp at h
    · simp at h
      subst h
      rw [tail_nil d (by omega)]
      exact ⟨[], .nil, (addRecs_nil v).symm⟩
  | succ fuel ih =>
    rw [varLoop] at h
    by_cases hi : i < size
    · rw [if_pos hi, Buf.rd_lt d (by omega)] at h
      simp only [ok_bind] at h
      by_cases hf : (d.bytes[i]'(by simp; omega)) = 0x2F
      · rw [if_pos hf] at h
        obtain ⟨rs, h1, h2⟩ := ih _ _ h
        rw [tail_cons d hs hi, hf]
        exact ⟨rs, .filler h1, h2⟩
      · rw [if_neg hf] at h
        rcases varRecord_eq d size hs i hi with he | ⟨_, _, he⟩
        · rw [he] at h
          have hhead : (tail d size i).head? ≠ some 0x2F := by rw [tail_cons d hs hi]; simpa using hf
          cases hp : pRec (tail d size i) with
          | error e => rw [hp] at h; simp [conv] at h
          | ok o =>
            rw [hp] at h
            cases o with
            | none => simp [conv] at h
            | some q =>
              obtain ⟨r, rest⟩ := q
              simp only [conv, ok_bind] at h
              obtain ⟨k1, k2, k3⟩ := pRec_sound _ _ _ hhead hp
              have hlen := congrArg List.length k2
              rw [List.length_append, tail_length d hs] at hlen
              have hrest : rest = tail d size (size - rest.length) := by
                have := congrArg (List.drop r.encode.length) k2
                rw [List.drop_left' rfl, tail_drop] at this
                exact this.symm.trans (congrArg (tail d size) (by omega))
              obtain ⟨l, hl⟩ := encode_head r
              have hb : (d.bytes[i]'(by simp; omega)) = difOf r := by
                have k2' := k2
                rw [tail_cons d hs hi, hl] at k2'
                injection k2'
              rw [hb] at h
              obtain ⟨rs, h1, h2⟩ := ih _ _ h
              rw [← hrest] at h1
              refine ⟨r :: rs, ?_, by rw [h2, addRecs_cons]⟩
              rw [k2]
              rcases k3 with ⟨dif, data, rfl, rfl⟩ | ⟨a, b, c, e, f, g, rfl⟩
              · cases h1
                rw [List.append_nil]
                exact .last _ _ k1
              · exact .cons k1 h1
        · rw [he] at h; simp at h
    · rw [if_neg hi] at h
      simp at h
      subst h
      rw [tail_nil d (by omega)]
      exact ⟨[], .nil, (addRecs_nil v).symm⟩

theorem varLoop_complete (d : Buf 252) (size : Nat) (hs : size ≤ 252) (fuel i : Nat) (v : VarData) (rs : List Rec)
    (h : Tiles (tail d size i) rs) (hf : size ≤ i + fuel) : varLoop d size fuel i v = .ok (0, addRecs v rs) := by
  induction fuel generalizing i v rs with
  | zero =>
    rw [tail_nil d (by omega)] at h
    cases h
    · rw [varLoop, if_neg (by omega), addRecs_nil]
  | succ fuel ih =>
    by_cases hi : i < size
    · rw [varLoop, if_pos hi, Buf.rd_lt d (by omega)]
      simp only [ok_bind]
      have ht := tail_cons d hs hi
      have fin : ∀ r rest, pRec (tail d size i) = .ok (some (r, rest)) → tail d size i = r.encode ++ rest → difOf r ≠ 0x2F →
          ∀ rs', Tiles rest rs' → (if (d.bytes[i]'(by simp; omega)) = 0x2F then varLoop d size fuel (i + 1) v
            else do
              match ← varRecord d size i with
              | none => .ok (-1, { v with more := if (d.bytes[i]'(by simp; omega)) = 0x1F then 1 else v.more })
              | some (r, i') =>
                  varLoop d size fuel i' { v with records := v.records ++ [r], nrecords := v.nrecords + 1,
                                                  more := if (d.bytes[i]'(by simp; omega)) = 0x1F then 1 else v.more }) =
            .ok (0, addRecs v (r :: rs')) := by
        intro r rest hp k2 hne rs' hT
        obtain ⟨l, hl⟩ := encode_head r
        have hb : (d.bytes[i]'(by simp; omega)) = difOf r := by
          have k2' := k2
          rw [ht, hl] at k2'
          injection k2'
        have hlen := congrArg List.length k2
        rw [List.length_append, tail_length d hs, hl] at hlen
        simp at hlen
        have hrest : rest = tail d size (size - rest.length) := by
          have := congrArg (List.drop r.encode.length) k2
          rw [List.drop_left' rfl, tail_drop] at this
          exact this.symm.trans (congrArg (tail d size) (by rw [hl]; simp; omega))
        rw [hb, if_neg hne]
        rcases varRecord_eq d size hs i hi with he | ⟨_, hn, _⟩
        · rw [he, hp]
          simp only [conv, ok_bind]
          rw [ih (size - rest.length) _ rs' (by rw [← hrest]; exact hT) (by omega), ← addRecs_cons]
        · rw [hp] at hn; simp at hn
      generalize htl : tail d size i = bs at h
      cases h with
      | nil => rw [htl] at ht; simp at ht
      | filler h1 =>
        rw [htl] at ht
        injection ht with ht1 ht2
        rw [← ht1, if_pos rfl]
        exact ih _ _ _ (by rw [← ht2]; exact h1) (by omega)
      | last dif data hL =>
        refine fin (.special dif data) [] ?_ (by rw [htl]; simp [Rec.encode]) ?_ [] .nil
        · rw [htl, pRec, if_pos hL.1, if_pos hL.2]
        · rcases hL.1 with h | h <;> simp [difOf, h]
      | @cons dif difes vif text vifes data bs' rs' hL h1 =>
        refine fin (.value dif difes vif text vifes data) bs' ?_ htl ?_ rs' h1
        · rw [htl]; exact pRec_complete_value _ _ _ _ _ _ _ hL
        · exact hL.2.2.1
    · rw [tail_nil d (by omega)] at h
      cases h
      · rw [varLoop, if_neg hi, addRecs_nil]

/-! ### faults -/

theorem pRec_fault (p : List Byte) (e : Fault) (h : pRec p = .error e) :
    (e = .oobWrite 128 128 ∧ 131 ≤ p.length) ∨ (e = .oobWrite 234 234 ∧ 236 ≤ p.length) := by
  cases p with
  | nil => simp [pRec] at h
  | cons dif l =>
    rw [pRec] at h
    by_cases hsp : dif = 0x0F ∨ dif = 0x1F
    · rw [if_pos hsp] at h
      split at h
      · simp at h
      · simp at h; right; exact ⟨h.symm, by simp; omega⟩
    · rw [if_neg hsp] at h
      cases hp : pChain 10 dif l with
      | none => rw [hp] at h; simp at h
      | some q =>
        obtain ⟨difes, l1⟩ := q
        obtain ⟨_, hl, _⟩ := pChain_sound _ _ _ _ _ hp
        rw [hp] at h
        cases l1 with
        | nil => simp at h
        | cons vif l1 =>
          simp only at h
          cases ht : pText vif l1 with
          | error e' =>
            rw [ht] at h
            simp only [error_bind] at h
            injection h with h
            subst h
            left
            unfold pText at ht
            split at ht
            · split at ht
              · simp at ht
              · split at ht
                · split at ht
                  · simp at ht
                    refine ⟨ht.symm, ?_⟩
                    rename_i hn _
                    subst hl
                    simp
                    omega
                  · simp at ht
                · simp at ht
            · simp at ht
          | ok o =>
            rw [ht] at h
            simp only [ok_bind] at h
            cases o with
            | none => simp at h
            | some q =>
              obtain ⟨text, l2⟩ := q
              simp only at h
              split at h
              · simp at h
              · split at h
                · simp at h
                · split at h <;> simp at h

/-- Every fault of the loop, with the payload sizes it needs; the fuel never runs out. -/
theorem varLoop_fault (d : Buf 252) (size : Nat) (hs : size ≤ 252) (fuel i : Nat) (v : VarData) (hi12 : 12 ≤ i)
    (hf : size ≤ i + fuel) (e : Fault) (h : varLoop d size fuel i v = .error e) :
    (e = .oobRead 252 252 ∧ 251 ≤ size) ∨ (e = .oobWrite 128 128 ∧ 143 ≤ size) ∨ (e = .oobWrite 234 234 ∧ 248 ≤ size) := by
  induction fuel generalizing i v with
  | zero => rw [varLoop, if_neg (by omega)] at h; simp at h
  | succ fuel ih =>
    rw [varLoop] at h
    by_cases hi : i < size
    · rw [if_pos hi, Buf.rd_lt d (by omega)] at h
      simp only [ok_bind] at h
      by_cases hff : (d.bytes[i]'(by simp; omega)) = 0x2F
      · rw [if_pos hff] at h; exact ih (i + 1) v (by omega) (by omega) h
      · rw [if_neg hff] at h
        rcases varRecord_eq d size hs i hi with he | ⟨hsz, _, he⟩
        · rw [he] at h
          have hhead : (tail d size i).head? ≠ some 0x2F := by rw [tail_cons d hs hi]; simpa using hff
          cases hp : pRec (tail d size i) with
          | error e' =>
            rw [hp] at h
            simp [conv] at h
            subst h
            rcases pRec_fault _ _ hp with ⟨h1, h2⟩ | ⟨h1, h2⟩
            · rw [tail_length d hs] at h2; right; left; exact ⟨h1, by omega⟩
            · rw [tail_length d hs] at h2; right; right; exact ⟨h1, by omega⟩
          | ok o =>
            rw [hp] at h
            cases o with
            | none => simp [conv] at h
            | some q =>
              obtain ⟨r, rest⟩ := q
              simp only [conv, ok_bind] at h
              obtain ⟨k1, k2, k3⟩ := pRec_sound _ _ _ hhead hp
              have hlen := congrArg List.length k2
              obtain ⟨l, hl⟩ := encode_head r
              rw [List.length_append, tail_length d hs, hl] at hlen
              simp at hlen
              exact ih _ _ (by omega) (by omega) h
        · rw [he] at h
          simp at h
          left; exact ⟨h.symm, hsz⟩
    · rw [if_neg hi] at h; simp at h

/-! ### independence of stale bytes -/

theorem varRecord_stale (d d' : Buf 252) (size : Nat) (hs : size ≤ 250) (i : Nat) (hi : i < size)
    (h : tail d size i = tail d' size i) : varRecord d size i = varRecord d' size i := by
  rcases varRecord_eq d size (by omega) i hi with h1 | ⟨h1, _⟩
  · rcases varRecord_eq d' size (by omega) i hi with h2 | ⟨h2, _⟩
    · rw [h1, h2, h]
    · omega
  · omega

theorem tail_congr (d d' : Buf 252) (size : Nat) (h : d.bytes.take size = d'.bytes.take size) (i : Nat) :
    tail d size i = tail d' size i := by unfold tail; rw [h]

theorem byte_congr (d d' : Buf 252) (size : Nat) (hs : size ≤ 252) (h : d.bytes.take size = d'.bytes.take size) (i : Nat)
    (hi : i < size) : d.rd i = d'.rd i := by
  have := tail_congr d d' size h i
  rw [tail_cons d hs hi, tail_cons d' hs hi] at this
  injection this with h1 _
  rw [Buf.rd_lt d (by omega), Buf.rd_lt d' (by omega), h1]

theorem varLoop_stale (d d' : Buf 252) (size : Nat) (hs : size ≤ 250) (h : d.bytes.take size = d'.bytes.take size)
    (fuel i : Nat) (v : VarData) : varLoop d size fuel i v = varLoop d' size fuel i v := by
  induction fuel generalizing i v with
  | zero => rw [varLoop, varLoop]
  | succ fuel ih =>
    rw [varLoop, varLoop]
    by_cases hi : i < size
    · rw [if_pos hi, if_pos hi, byte_congr d d' size (by omega) h i hi,
        varRecord_stale d d' size hs i hi (tail_congr d d' size h i)]
      simp only [ih]
    · rw [if_neg hi, if_neg hi]

theorem varRecord_stale_ok (d d' : Buf 252) (size : Nat) (hs : size ≤ 252) (i : Nat) (hi : i < size)
    (h : tail d size i = tail d' size i) (x y : Option (Record × Nat)) (hx : varRecord d size i = .ok x)
    (hy : varRecord d' size i = .ok y) : x = y := by
  rcases varRecord_eq d size (by omega) i hi with h1 | ⟨_, _, h1⟩
  · rcases varRecord_eq d' size (by omega) i hi with h2 | ⟨_, _, h2⟩
    · rw [h1, h, ← h2, hy] at hx; injection hx with hx; exact hx.symm
    · rw [h2] at hy; simp at hy
  · rw [h1] at hx; simp at hx

theorem varLoop_stale_ok (d d' : Buf 252) (size : Nat) (hs : size ≤ 252) (h : d.bytes.take size = d'.bytes.take size)
    (fuel i : Nat) (v : VarData) (x y : Int × VarData) (hx : varLoop d size fuel i v = .ok x)
    (hy : varLoop d' size fuel i v = .ok y) : x = y := by
  induction fuel generalizing i v with
  | zero =>
    rw [varLoop] at hx hy
    rw [hx] at hy; injection hy
  | succ fuel ih =>
    rw [varLoop] at hx hy
    by_cases hi : i < size
    · rw [if_pos hi] at hx hy
      rw [← byte_congr d d' size (by omega) h i hi] at hy
      rw [Buf.rd_lt d (by omega)] at hx hy
      simp only [ok_bind] at hx hy
      by_cases hff : (d.bytes[i]'(by simp; omega)) = 0x2F
      · rw [if_pos hff] at hx hy; exact ih _ _ hx hy
      · rw [if_neg hff] at hx hy
        cases hr : varRecord d size i with
        | error e => rw [hr] at hx; simp at hx
        | ok a =>
          cases hr' : varRecord d' size i with
          | error e => rw [hr'] at hy; simp at hy
          | ok b =>
            have hab := varRecord_stale_ok d d' size hs i hi (tail_congr d d' size h i) a b hr hr'
            subst hab
            rw [hr] at hx
            rw [hr'] at hy
            simp only [ok_bind] at hx hy
            cases a with
            | none => simp only at hx hy; rw [hx] at hy; injection hy
            | some q => exact ih _ _ hx hy
    · rw [if_neg hi] at hx hy
      rw [hx] at hy; injection hy

end Mbus
