import Verif.Lemmas.Messages
import Verif.Lemmas.Tiles
/- Lemmas for Props/Messages.lean: messages of the application layer. -/
namespace Mbus
open Spec

/-- forget the message of a failure -/
def mend {α : Type} (x : C (List Byte ⊕ α)) : C (Option α) := x.map fun
  | .inl _ => none
  | .inr a => some a

@[simp] theorem mend_inl {α : Type} (m : List Byte) : mend (.ok (.inl m) : C (List Byte ⊕ α)) = .ok none := rfl
@[simp] theorem mend_inr {α : Type} (a : α) : mend (.ok (.inr a)) = .ok (some a) := rfl
@[simp] theorem mend_error {α : Type} (e : Fault) : mend (.error e : C (List Byte ⊕ α)) = .error e := rfl

theorem mend_bind {α δ : Type} (x : C δ) (k : δ → C (List Byte ⊕ α)) : mend (x >>= k) = x >>= fun d => mend (k d) := by
  cases x <;> rfl

theorem mend_if {α : Type} (p : Prop) [Decidable p] (x y : C (List Byte ⊕ α)) : mend (if p then x else y) = if p then mend x else mend y := by
  split <;> rfl

theorem extLoopE_mend (m : List Byte) (d : Buf 252) (size room i n : Nat) (a : Buf 10) :
    mend (extLoopE m d size room i n a) = difeLoop d size room i n a := by
  induction room generalizing i n a with
  | zero => rw [extLoopE, difeLoop]; simp only [mend_if, mend_bind, mend_inl, mend_inr]
  | succ room ih => rw [extLoopE, difeLoop]; simp only [mend_if, mend_bind, mend_inr, ih]

theorem vifPartE_mend (d : Buf 252) (size i : Nat) (c : Buf 128) : mend (vifPartE d size i c) = vifPart d size i c := by
  unfold vifPartE vifPart
  simp only [mend_if, mend_bind, mend_inl, mend_inr]

theorem vifePartE_mend (d : Buf 252) (size i : Nat) (vif : Byte) (a : Buf 10) : mend (vifePartE d size i vif a) = vifePart d size i vif a := by
  unfold vifePartE vifePart
  simp only [mend_if, mend_bind, mend_inr, vifeLoop_eq_difeLoop, ← extLoopE_mend (cs! "Too many VIFE.")]
  split
  · congr 1; funext x; congr 1; funext y
    cases extLoopE (cs! "Too many VIFE.") d size 9 i 1 y with
    | error e => rfl
    | ok q => cases q <;> rfl
  · rfl

theorem varRecordE_mend (d : Buf 252) (size i : Nat) : mend (varRecordE d size i) = varRecord d size i := by
  unfold varRecordE varRecord
  simp only [mend_if, mend_bind, mend_inr, ← extLoopE_mend (cs! "Too many DIFE."), ← vifPartE_mend, ← vifePartE_mend]
  congr 1; funext dif
  split
  · rfl
  · cases extLoopE (cs! "Too many DIFE.") d size 10 i 0 Record.new.dife with
    | error e => rfl
    | ok q =>
      cases q with
      | inl m => rfl
      | inr q =>
        obtain ⟨i, ndife, dife⟩ := q
        simp only [ok_bind, mend_inr, mend_if, mend_inl, mend_bind]
        split
        · rfl
        · cases vifPartE d size (i + 1) Record.new.customVif with
          | error e => rfl
          | ok q =>
            cases q with
            | inl m => rfl
            | inr q =>
              obtain ⟨i, vif, custom⟩ := q
              simp only [ok_bind, mend_inr, mend_bind]
              cases vifePartE d size i vif Record.new.vife with
              | error e => rfl
              | ok q =>
                cases q with
                | inl m => rfl
                | inr q =>
                  obtain ⟨i, nvife, vife⟩ := q
                  simp only [ok_bind, mend_inr, mend_if, mend_inl, mend_bind]

theorem varLoopE_mute (d : Buf 252) (size fuel i : Nat) (v : VarData) : silent2 (varLoopE d size fuel i v) = varLoop d size fuel i v := by
  induction fuel generalizing i v with
  | zero => rw [varLoopE, varLoop]; split <;> rfl
  | succ fuel ih =>
    rw [varLoopE, varLoop]
    simp only [silent2_if, silent2_bind, silent2_ok, ih, ← varRecordE_mend]
    split
    · congr 1; funext b
      split
      · rfl
      · cases varRecordE d size i with
        | error e => rfl
        | ok q =>
          cases q with
          | inl m => rfl
          | inr q => obtain ⟨r, i'⟩ := q; simp only [ok_bind, mend_inr, ih]
    · rfl

theorem variableParseE_mute (f : Frame) (v : VarData) : silent2 (variableParseE f v) = variableParse f v := by
  unfold variableParseE variableParse
  simp only [silent2_if, silent2_bind, silent2_ok, varLoopE_mute]

theorem fixedParseE_mute (f : Frame) (x : FixedData) : silent2 (fixedParseE f x) = fixedParse f x := by
  unfold fixedParseE
  split
  · rename_i h
    unfold fixedParse
    rw [if_pos h]
    rfl
  · cases fixedParse f x with
    | error e => rfl
    | ok q => rfl

theorem frameDataParseE_mute (f : Frame) (x : FrameData) : silent2 (frameDataParseE f x) = frameDataParse f x := by
  unfold frameDataParseE frameDataParse
  simp only [silent2_if, silent2_bind, silent2_ok, ← fixedParseE_mute, ← variableParseE_mute]
  split
  · split
    · rfl
    · split
      · split
        · rfl
        · cases fixedParseE f x.fix <;> rfl
      · split
        · split
          · rfl
          · cases variableParseE f x.var <;> rfl
        · rfl
  · rfl

/-! ### the messages are right -/

theorem extended_iff (b : Byte) : (b &&& 0x80 ≠ 0) ↔ Extended b := ext_iff b

theorem extLoopE_inl (m : List Byte) (d : Buf 252) (size : Nat) (hs : size ≤ 252) (room i n : Nat) (a : Buf 10) (t : List Byte)
    (h : extLoopE m d size room i n a = .ok (.inl t)) :
    t = m ∧ ∃ bs, bs.length = room + 1 ∧ (∀ b ∈ bs, Extended b) ∧ tail d size i = bs ++ tail d size (i + room + 1) := by
  induction room generalizing i n a with
  | zero =>
    rw [extLoopE] at h
    split at h
    · rename_i hi
      rw [Buf.rd_lt d (by omega)] at h
      simp only [ok_bind, extended_iff] at h
      split at h
      · rename_i he
        cases h
        exact ⟨rfl, [_], rfl, by simpa using he, by rw [tail_cons d hs hi]; rfl⟩
      · cases h
    · cases h
  | succ room ih =>
    rw [extLoopE] at h
    split at h
    · rename_i hi
      rw [Buf.rd_lt d (by omega)] at h
      simp only [ok_bind, extended_iff] at h
      split at h
      · rename_i he
        obtain ⟨x, h1, h⟩ := bind_eq_ok.mp h
        obtain ⟨y, h2, h⟩ := bind_eq_ok.mp h
        obtain ⟨e, bs, k1, k2, k3⟩ := ih _ _ _ h
        refine ⟨e, _ :: bs, by simp [k1], ?_, by rw [tail_cons d hs hi, k3, show i + 1 + room + 1 = i + (room + 1) + 1 by omega]; rfl⟩
        intro b hb
        rcases List.mem_cons.mp hb with rfl | hb
        · exact he
        · exact k2 b hb
      · cases h
    · cases h

theorem extLoopE_inr (m : List Byte) (d : Buf 252) (size : Nat) (hs : size ≤ 252) (room i n : Nat) (a : Buf 10) (j n' : Nat) (a' : Buf 10)
    (h : extLoopE m d size room i n a = .ok (.inr (j, n', a'))) (hi : i ≤ size) :
    i ≤ j ∧ j ≤ size ∧ ∃ bs, bs.length = j - i ∧ j - i ≤ room ∧ (∀ b ∈ bs, Extended b) ∧ tail d size i = bs ++ tail d size j ∧
      (j < size → ∃ b rest, tail d size j = b :: rest ∧ ¬ Extended b) := by
  have stop : extLoopE m d size room i n a = .ok (.inr (i, n, a)) → (i < size → ∃ b rest, tail d size i = b :: rest ∧ ¬ Extended b) →
      i ≤ j ∧ j ≤ size ∧ ∃ bs, bs.length = j - i ∧ j - i ≤ room ∧ (∀ b ∈ bs, Extended b) ∧ tail d size i = bs ++ tail d size j ∧
      (j < size → ∃ b rest, tail d size j = b :: rest ∧ ¬ Extended b) := by
    intro h1 h2
    rw [h1] at h
    injection h with h
    injection h with h
    injection h with h _
    subst h
    exact ⟨Nat.le_refl _, hi, [], by simp, by simp, by simp, by simp, h2⟩
  by_cases hlt : i < size
  · by_cases he : Extended (d.bytes[i]'(by simp; omega))
    · cases room with
      | zero =>
        rw [extLoopE, if_pos hlt, Buf.rd_lt d (by omega)] at h
        simp only [ok_bind, extended_iff] at h
        rw [if_pos he] at h
        cases h
      | succ room =>
        rw [extLoopE, if_pos hlt, Buf.rd_lt d (by omega)] at h
        simp only [ok_bind, extended_iff] at h
        rw [if_pos he] at h
        obtain ⟨x, _, h⟩ := bind_eq_ok.mp h
        obtain ⟨y, _, h⟩ := bind_eq_ok.mp h
        obtain ⟨k1, k2, bs, k3, k4, k5, k6, k7⟩ := extLoopE_inr m d size hs room _ _ _ _ _ _ h (by omega)
        refine ⟨by omega, k2, _ :: bs, by simp [k3]; omega, by omega, ?_, by rw [tail_cons d hs hlt, k6]; rfl, k7⟩
        intro b hb
        rcases List.mem_cons.mp hb with rfl | hb
        · exact he
        · exact k5 b hb
    · refine stop ?_ (fun _ => ⟨_, _, tail_cons d hs hlt, he⟩)
      cases room <;>
      · rw [extLoopE, if_pos hlt, Buf.rd_lt d (by omega)]
        simp only [ok_bind, extended_iff]
        rw [if_neg he]
  · refine stop ?_ (fun k => absurd k hlt)
    cases room <;> rw [extLoopE, if_neg hlt]

theorem chain_of (bs : List Byte) (b x : Byte) (xs : List Byte) (h : ∀ y ∈ bs, Extended y) (hb : ¬ Extended b) (he : bs ++ [b] = x :: xs) :
    Chain x xs := by
  induction bs generalizing x xs with
  | nil => cases he; simpa [Chain, Extended] using hb
  | cons y ys ih =>
    injection he with h1 h2
    subst h1
    cases xs with
    | nil => simp at h2
    | cons z zs => exact ⟨h y (by simp), ih z zs (fun w hw => h w (by simp [hw])) h2⟩

theorem chain_snoc (v : Byte) (bs : List Byte) (b : Byte) (hv : Extended v) (h : ∀ y ∈ bs, Extended y) (hb : ¬ Extended b) : Chain v (bs ++ [b]) :=
  chain_of (v :: bs) b v (bs ++ [b]) (fun y hy => (List.mem_cons.mp hy).elim (fun e => e ▸ hv) (h y)) hb rfl

theorem textBlock_of (vif : Byte) (l text rest : List Byte) (h : pText vif l = .ok (some (text, rest))) :
    TextBlock vif text ∧ l = textBlock vif text ++ rest := by
  unfold pText at h
  split at h
  · rename_i hp
    split at h
    · cases h
    · rename_i n l
      split at h
      · rename_i hn
        split at h
        · cases h
        · cases h
          have hlen : (l.take n.toNat).length = n.toNat := by rw [List.length_take]; omega
          refine ⟨⟨by omega, fun k => absurd hp k⟩, ?_⟩
          unfold textBlock
          rw [if_pos hp, hlen]
          simp
      · cases h
  · rename_i hp
    cases h
    exact ⟨⟨by simp, fun _ => rfl⟩, by simp [textBlock, hp]⟩

/-- the bytes behind DIF and DIFEs -/
theorem vifPartE_broken (d : Buf 252) (size i : Nat) (hs : size ≤ 252) (hi : i ≤ size) (dif : Byte) (difes : List Byte) (hd : DifBlock dif difes)
    (t : List Byte) (h : vifPartE d size i (Buf.zero 128) = .ok (.inl t)) : Broken (dif :: difes ++ tail d size i) t := by
  unfold vifPartE at h
  obtain ⟨vif, h1, h⟩ := bind_eq_ok.mp h
  simp only [plain_iff] at h
  split at h
  · rename_i hp
    obtain ⟨n, h2, h⟩ := bind_eq_ok.mp h
    by_cases h3 : i < size
    · rw [Buf.rd_lt d (by omega)] at h1
      cases h1
      by_cases h4 : i + 1 < size
      · rw [Buf.rd_lt d (by omega)] at h2
        cases h2
        rw [tail_cons d hs h3, tail_cons d hs h4]
        split at h
        · cases h
          exact .longText _ _ _ _ _ hd hp (by omega)
        split at h
        · cases h
          exact .endText _ _ _ _ _ hd hp (by omega) (by rw [tail_length d hs]; omega)
        · obtain ⟨c, _, h⟩ := bind_eq_ok.mp h
          cases h
      · rw [tail_cons d hs h3, tail_nil d (by omega)]
        refine .noLength _ _ _ _ hd hp ?_
        split at h
        · cases h; simp
        split at h
        · cases h; simp
        · obtain ⟨c, _, h⟩ := bind_eq_ok.mp h
          cases h
    · rw [tail_nil d (by omega), List.append_nil]
      refine .noVif _ _ _ hd ?_
      split at h
      · cases h; simp
      split at h
      · cases h; simp
      · obtain ⟨c, _, h⟩ := bind_eq_ok.mp h
        cases h
  · cases h

/-- the data of a record -/
theorem dataE_broken (d : Buf 252) (size i : Nat) (hs : size ≤ 252) (hi : i ≤ size) (dif : Byte) (difes : List Byte) (vif : Byte)
    (text vifes : List Byte) (hd : DifBlock dif difes) (ht : TextBlock vif text) (hc : Chain vif vifes) (hl : vifes.length ≤ 10)
    (h : (dif &&& 0x0F = 0x0D ∧ ∃ b, d.rd i = .ok b ∧ i + lvarLength b (difLength dif) > size) ∨
      (dif &&& 0x0F ≠ 0x0D ∧ i + difLength dif > size)) :
    Broken (dif :: difes ++ vif :: textBlock vif text ++ vifes ++ tail d size i) (cs! "Premature end of record at data.") := by
  refine .endData dif difes vif text vifes _ hd ht hc hl ?_
  simp only [ne_eq, varlen_iff] at h
  rcases h with ⟨hv, b', h1, hlen⟩ | ⟨hv, hlen⟩
  · rw [if_pos hv]
    intro b r hbr
    have hlt : i < size := by
      apply Classical.byContradiction
      intro hn
      rw [tail_nil d (by omega)] at hbr
      cases hbr
    rw [tail_cons d hs hlt] at hbr
    injection hbr with e1 e2
    rw [Buf.rd_lt d (by omega)] at h1
    injection h1 with h1
    have hz : difLength dif = 0 := by rw [difLength_eq, width_varlen dif hv]
    rw [hz, lvarLength_eq, ← h1, e1] at hlen
    rw [← e2, tail_length d hs]
    omega
  · rw [if_neg hv, tail_length d hs]
    rw [difLength_eq] at hlen
    omega

theorem varRecordE_broken (d : Buf 252) (size i : Nat) (hs : size ≤ 252) (hi : i < size) (hf : d.bytes[i]'(by simp; omega) ≠ 0x2F)
    (t : List Byte) (h : varRecordE d size i = .ok (.inl t)) : Broken (tail d size i) t := by
  unfold varRecordE at h
  rw [Buf.rd_lt d (by omega)] at h
  simp only [ok_bind] at h
  split at h
  · obtain ⟨_, _, h⟩ := bind_eq_ok.mp h
    cases h
  rename_i hsp
  obtain ⟨q, h1, h⟩ := bind_eq_ok.mp h
  cases q with
  | inl m =>
    cases h
    obtain ⟨rfl, bs, k1, k2, k3⟩ := extLoopE_inl _ d size hs 10 i 0 _ _ h1
    rw [k3]
    exact .manyDife bs _ k1 k2
  | inr q =>
    obtain ⟨j, ndife, dife⟩ := q
    simp only at h
    obtain ⟨a1, a2, bs, a3, a4, a5, a6, a7⟩ := extLoopE_inr _ d size hs 10 i 0 _ _ _ _ h1 (by omega)
    split at h
    · rename_i hj
      cases h
      have hj' : j = size := by omega
      rw [a6, hj', tail_nil d (by omega), List.append_nil]
      exact .endDif bs (by intro e; rw [e] at a3; simp at a3; omega) (by omega) a5
    rename_i hj
    obtain ⟨b, rest, b1, b2⟩ := a7 (by omega)
    have hrest : rest = tail d size (j + 1) := by
      rw [tail_cons d hs (by omega)] at b1
      injection b1 with _ e
      exact e.symm
    have hblock : ∃ dif difes, DifBlock dif difes ∧ bs ++ [b] = dif :: difes ∧ dif = d.bytes[i]'(by simp; omega) := by
      have hhead : ∃ difes, bs ++ [b] = d.bytes[i]'(by simp; omega) :: difes := by
        rw [b1, tail_cons d hs hi] at a6
        cases bs with
        | nil => injection a6 with e _; exact ⟨[], by rw [e]; rfl⟩
        | cons x xs => injection a6 with e _; exact ⟨xs ++ [b], by rw [e]; rfl⟩
      obtain ⟨difes, e⟩ := hhead
      have hl := congrArg List.length e
      simp at hl
      refine ⟨_, difes, ⟨fun k => hsp (.inl k), fun k => hsp (.inr k), hf, chain_of bs b _ _ a5 b2 e, by omega⟩, e, rfl⟩
    obtain ⟨dif, difes, hd, he, hdif⟩ := hblock
    have htail : tail d size i = dif :: difes ++ tail d size (j + 1) := by
      rw [a6, b1, hrest, List.append_cons, he]
    rw [htail]
    rw [← hdif] at h
    obtain ⟨q, h2, h⟩ := bind_eq_ok.mp h
    cases q with
    | inl m =>
      cases h
      exact vifPartE_broken d size (j + 1) hs (by omega) dif difes hd t h2
    | inr q =>
      obtain ⟨i', vif, custom⟩ := q
      simp only at h
      have h2' : vifPart d size (j + 1) (Buf.zero 128) = .ok (some (i', vif, custom)) := by
        rw [← vifPartE_mend]; exact congrArg mend h2
      obtain ⟨q, h3, h⟩ := bind_eq_ok.mp h
      by_cases hend : j + 1 = size
      · -- nothing behind the DIFEs
        rw [hend, tail_nil d (Nat.le_refl _), List.append_nil]
        have hi' : i' = size + 1 := by
          rw [hend] at h2'
          rcases vifPart_end d size hs (Buf.zero 128) with k | ⟨_, v, c', k⟩ | ⟨_, k⟩
          · rw [k] at h2'; cases h2'
          · rw [k] at h2'; cases h2'; rfl
          · rw [k] at h2'; cases h2'
        refine .noVif _ _ _ hd ?_
        unfold vifePartE at h3
        split at h3
        · obtain ⟨x, _, h3⟩ := bind_eq_ok.mp h3
          obtain ⟨y, _, h3⟩ := bind_eq_ok.mp h3
          rw [extLoopE, if_neg (by omega)] at h3
          simp only [ok_bind] at h3
          cases h3
          simp only at h
          rw [if_pos (by omega)] at h
          cases h
          simp
        · cases h3
          simp only at h
          rw [if_pos (by omega)] at h
          cases h
          simp
      · have hlt : j + 1 < size := by omega
        have k := vifPart_eq d size hs (j + 1) hlt
        rw [h2'] at k
        rw [tail_cons d hs hlt]
        generalize hv : d.bytes[j + 1]'(by simp; omega) = vif' at k
        cases hp : pText vif' (tail d size (j + 1 + 1)) with
        | error e => rw [hp] at k; cases k
        | ok o =>
          rw [hp] at k
          cases o with
          | none => rcases k with k | ⟨_, k⟩ <;> cases k
          | some o =>
            obtain ⟨text, rest2⟩ := o
            simp only at k
            obtain ⟨k1, k2, k3⟩ := k
            injection k1 with k1
            injection k1 with k1
            injection k1 with k11 k12
            injection k12 with k12 _
            subst k12
            obtain ⟨ht, hte⟩ := textBlock_of vif _ _ _ hp
            rw [← k11] at k2
            rw [hte, k2]
            have hi' : i' ≤ size := by omega
            unfold vifePartE at h3
            simp only [extended_iff] at h3
            split at h3
            · rename_i hext
              obtain ⟨x, _, h3⟩ := bind_eq_ok.mp h3
              obtain ⟨y, _, h3⟩ := bind_eq_ok.mp h3
              obtain ⟨q', h4, h3⟩ := bind_eq_ok.mp h3
              cases q' with
              | inl m =>
                cases h3
                cases h
                obtain ⟨rfl, cs, c1, c2, c3⟩ := extLoopE_inl _ d size hs 9 i' 1 _ _ h4
                rw [c3]
                have := Broken.manyVife dif difes vif text cs (tail d size (i' + 9 + 1)) hd ht hext c1 c2
                simpa using this
              | inr q' =>
                obtain ⟨j', n', a'⟩ := q'
                cases h3
                simp only at h
                obtain ⟨c1, c2, cs, c3, c4, c5, c6, c7⟩ := extLoopE_inr _ d size hs 9 i' 1 _ _ _ _ h4 hi'
                split at h
                · rename_i hj'
                  cases h
                  have hj'' : j' = size := by omega
                  rw [c6, hj'', tail_nil d (Nat.le_refl _), List.append_nil]
                  have := Broken.endVife dif difes vif text cs hd ht hext (by omega) c5
                  simpa using this
                · rename_i hj'
                  obtain ⟨b', rest', d1, d2⟩ := c7 (by omega)
                  have hrest' : rest' = tail d size (j' + 1) := by
                    rw [tail_cons d hs (by omega)] at d1
                    injection d1 with _ e
                    exact e.symm
                  have fin := dataE_broken d size (j' + 1) hs (by omega) dif difes vif text (cs ++ [b']) hd ht (chain_snoc vif cs b' hext c5 d2)
                    (by simp; omega)
                  rw [c6, d1, hrest']
                  split at h
                  · obtain ⟨b, hb, h⟩ := bind_eq_ok.mp h
                    split at h
                    · cases h
                      simpa using fin (.inl ⟨by assumption, b, hb, by assumption⟩)
                    · obtain ⟨_, _, h⟩ := bind_eq_ok.mp h
                      cases h
                  · split at h
                    · cases h
                      simpa using fin (.inr ⟨by assumption, by assumption⟩)
                    · obtain ⟨_, _, h⟩ := bind_eq_ok.mp h
                      cases h
            · rename_i hext
              cases h3
              simp only at h
              rw [if_neg (by omega)] at h
              have fin := dataE_broken d size i' hs hi' dif difes vif text [] hd ht (by simpa [Chain, Extended] using hext) (by simp)
              split at h
              · obtain ⟨b, hb, h⟩ := bind_eq_ok.mp h
                split at h
                · cases h
                  simpa using fin (.inl ⟨by assumption, b, hb, by assumption⟩)
                · obtain ⟨_, _, h⟩ := bind_eq_ok.mp h
                  cases h
              · split at h
                · cases h
                  simpa using fin (.inr ⟨by assumption, by assumption⟩)
                · obtain ⟨_, _, h⟩ := bind_eq_ok.mp h
                  cases h

theorem broken_ne {q t : List Byte} (h : Broken q t) : q ≠ [] := by
  cases h with
  | manyDife bs rest h1 => intro e; rw [(List.append_eq_nil_iff.mp e).1] at h1; cases h1
  | endDif bs h1 => exact h1
  | _ => simp

/-- the loop: records before the broken one are fine -/
theorem varLoopE_said (d : Buf 252) (size : Nat) (hs : size ≤ 252) (fuel i : Nat) (v v' : VarData) (r : Int) (m : Said)
    (h : varLoopE d size fuel i v = .ok (r, v', m)) :
    (r = 0 ∧ m = none) ∨
    (r = -1 ∧ ∃ t done q rs, m = some t ∧ tail d size i = done ++ q ∧ Tiles done rs ∧ (∀ x ∈ rs, ∀ dif data, x ≠ .special dif data) ∧ Broken q t) := by
  induction fuel generalizing i v with
  | zero =>
    rw [varLoopE] at h
    split at h
    · cases h
    · cases h; exact .inl ⟨rfl, rfl⟩
  | succ fuel ih =>
    rw [varLoopE] at h
    split at h
    · rename_i hi
      rw [Buf.rd_lt d (by omega)] at h
      simp only [ok_bind] at h
      split at h
      · rename_i hf
        rcases ih _ _ h with k | ⟨k1, t, done, q, rs, k2, k3, k4, k5, k6⟩
        · exact .inl k
        · refine .inr ⟨k1, t, 0x2F :: done, q, rs, k2, ?_, .filler k4, k5, k6⟩
          rw [tail_cons d hs hi, hf, k3]; rfl
      · rename_i hf
        obtain ⟨o, h1, h⟩ := bind_eq_ok.mp h
        cases o with
        | inl t =>
          cases h
          exact .inr ⟨rfl, t, [], _, [], rfl, rfl, .nil, by simp, varRecordE_broken d size i hs hi hf t h1⟩
        | inr o =>
          obtain ⟨rec', i'⟩ := o
          have h1' : varRecord d size i = .ok (some (rec', i')) := by rw [← varRecordE_mend]; exact congrArg mend h1
          rcases ih _ _ h with k | ⟨k1, t, done, q, rs, k2, k3, k4, k5, k6⟩
          · exact .inl k
          · rcases varRecord_eq d size hs i hi with he | ⟨_, _, he⟩
            · have hhead : (tail d size i).head? ≠ some 0x2F := by rw [tail_cons d hs hi]; simpa using hf
              rw [he] at h1'
              cases hp : pRec (tail d size i) with
              | error e => rw [hp] at h1'; simp [conv] at h1'
              | ok o =>
                rw [hp] at h1'
                cases o with
                | none => simp [conv] at h1'
                | some w =>
                  obtain ⟨r', rest⟩ := w
                  simp only [conv, Except.ok.injEq, Option.some.injEq, Prod.mk.injEq] at h1'
                  obtain ⟨j1, j2, j3⟩ := pRec_sound _ _ _ hhead hp
                  have hlen := congrArg List.length j2
                  rw [List.length_append, tail_length d hs] at hlen
                  have hrest : rest = tail d size i' := by
                    have := congrArg (List.drop r'.encode.length) j2
                    rw [List.drop_left' rfl, tail_drop] at this
                    exact this.symm.trans (congrArg (tail d size) (by omega))
                  rcases j3 with ⟨dif, data, rfl, rfl⟩ | ⟨a, b, c, e, f, g, rfl⟩
                  · rw [← hrest] at k3
                    obtain ⟨_, hq⟩ := List.append_eq_nil_iff.mp k3.symm
                    exact absurd hq (broken_ne k6)
                  · refine .inr ⟨k1, t, _, q, _, k2, ?_, .cons j1 k4, ?_, k6⟩
                    · rw [j2, hrest, k3, List.append_assoc]
                    · intro x hx dif data
                      rcases List.mem_cons.mp hx with rfl | hx
                      · intro hh; cases hh
                      · exact k5 x hx dif data
            · rw [he] at h1'; cases h1'
    · cases h; exact .inl ⟨rfl, rfl⟩

end Mbus
