import Verif.Lemmas.Threads
namespace Mbus
open Spec

/-- All accesses of a piece of code, whatever the loads deliver, are in the arrays `B`, and every result satisfies `Q`. -/
def Prog.Uses {α : Type} (B : List SBuf) (Q : α → Prop) : Prog α → Prop
  | .done a => Q a
  | .fault _ => True
  | .load b _ k => b ∈ B ∧ ∀ v, (k v).Uses B Q
  | .store b _ _ k => b ∈ B ∧ k.Uses B Q

theorem uses_bind {α β : Type} {B : List SBuf} {Q : α → Prop} {R : β → Prop} {p : Prog α} {k : α → Prog β} (hp : p.Uses B Q) (hk : ∀ a, Q a → (k a).Uses B R) :
    (p >>= k).Uses B R := by
  show (p.bind k).Uses B R
  induction p with
  | done a => exact hk a hp
  | fault f => trivial
  | load b i g ih => exact ⟨hp.1, fun v => ih v (hp.2 v)⟩
  | store b i v g ih => exact ⟨hp.1, ih hp.2⟩

theorem Prog.Uses.mono {α : Type} {B B' : List SBuf} {Q Q' : α → Prop} {p : Prog α} (hp : p.Uses B Q) (hB : ∀ b ∈ B, b ∈ B') (hQ : ∀ a, Q a → Q' a) : p.Uses B' Q' := by
  induction p with
  | done a => exact hQ a hp
  | fault f => trivial
  | load b i g ih => exact ⟨hB b hp.1, fun v => ih v (hp.2 v)⟩
  | store b i v g ih => exact ⟨hB b hp.1, ih hp.2⟩

theorem uses_lift {α : Type} (B : List SBuf) (x : C α) : (pLift x).Uses B (fun _ => True) := by
  cases x <;> trivial

theorem uses_bytes {B : List SBuf} {b : SBuf} (hb : b ∈ B) (t : List Byte) : ∀ i, (pBytes b i t).Uses B (fun _ => True) := by
  induction t with
  | nil => exact fun _ => trivial
  | cons v t ih => exact fun i => ⟨hb, ih (i + 1)⟩

theorem uses_print {B : List SBuf} {b : SBuf} (hb : b ∈ B) (args : List Ptr) (t : List Byte) : (pPrint b args t).Uses B (fun _ => True) := by
  unfold pPrint
  split
  · trivial
  · exact uses_bytes hb _ 0

theorem uses_string {B : List SBuf} {b : SBuf} (hb : b ∈ B) : ∀ n i, (pString b n i).Uses B (fun _ => True) := by
  intro n
  induction n with
  | zero => exact fun _ => trivial
  | succ n ih =>
    intro i
    refine ⟨hb, fun v => ?_⟩
    dsimp only
    split
    · trivial
    · exact uses_bind (ih (i + 1)) (fun _ _ => trivial)

theorem uses_load {B : List SBuf} {b : SBuf} (hb : b ∈ B) : ∀ n i, (pLoad b n i).Uses B (fun _ => True) := by
  intro n
  induction n with
  | zero => exact fun _ => trivial
  | succ n ih => exact fun i => ⟨hb, fun v => uses_bind (ih (i + 1)) (fun _ _ => trivial)⟩

theorem uses_update {B : List SBuf} {b : SBuf} (hb : b ∈ B) : ∀ (old new : List Byte) i live, (pUpdate b i live old new).Uses B (fun _ => True) := by
  intro old
  induction old with
  | nil => intro new i live; rw [pUpdate] <;> simp [Prog.Uses]
  | cons o old ih =>
    intro new i live
    cases new with
    | nil => rw [pUpdate] <;> simp [Prog.Uses]
    | cons n new =>
      rw [pUpdate]
      split
      · exact ⟨hb, ih ..⟩
      · exact ih ..

theorem uses_put {B : List SBuf} {b : SBuf} (hb : b ∈ B) (n : Nat) (t : List Byte) : (pPut b n t).Uses B (fun _ => True) := by
  unfold pPut
  split
  · trivial
  split
  · trivial
  · exact uses_bind (uses_bytes hb _ _) (fun _ _ => trivial)

/-- The pointer points to a constant or into `H`. -/
def At (H : List SBuf) (p : Ptr) : Prop := ∀ b, p = .buf b → b ∈ H

theorem at_buf {H : List SBuf} {b : SBuf} (h : b ∈ H) : At H (.buf b) := fun c hc => by injection hc with hc; exact hc ▸ h

theorem uses_read {B : List SBuf} {p : Ptr} (h : At B p) : (pRead p).Uses B (fun _ => True) := by
  cases p with
  | const t => trivial
  | null => trivial
  | buf b => exact uses_string (h b rfl) _ _

/-- An array the code does not access may hold anything and stays as it is. -/
theorem exec_frame {α : Type} {B : List SBuf} {Q : α → Prop} {p : Prog α} (hp : p.Uses B Q) {b : SBuf} (hb : b ∉ B) (m : List Byte) {s s' : Statics} {a : α}
    (h : p.exec s = .ok (a, s')) : p.exec (s.set b m) = .ok (a, s'.set b m) ∧ s' b = s b ∧ Q a := by
  induction p generalizing s with
  | done a => injection h with h; injection h with h1 h2; subst h1 h2; exact ⟨rfl, rfl, hp⟩
  | fault f => cases h
  | load c i k ih =>
    have hc : c ≠ b := fun e => hb (e ▸ hp.1)
    rw [Prog.exec] at h ⊢
    split at h
    · rename_i hi
      rw [if_pos hi, set_other _ _ hc]
      exact ih _ (hp.2 _) h
    · cases h
  | store c i v k ih =>
    have hc : c ≠ b := fun e => hb (e ▸ hp.1)
    rw [Prog.exec] at h ⊢
    split at h
    · rename_i hi
      rw [if_pos hi, set_other _ _ hc, set_swap _ _ _ hc.symm]
      obtain ⟨h1, h2, h3⟩ := ih hp.2 h
      exact ⟨h1, h2.trans (set_other _ _ hc.symm), h3⟩
    · cases h

/-! What the functions access. -/

theorem uses_plain (b : SBuf) (t : List Byte) : (pPlain b t).Uses [b] (At [b]) :=
  uses_bind (uses_print (by simp) _ _) fun _ _ => at_buf (by simp)

theorem uses_prefix (e : Int) : (pPrefix e).Uses [.unitPrefix] (At [.unitPrefix]) := uses_plain _ _

theorem uses_format (b : SBuf) (x : Option (List Byte × Int × List Byte)) (t : List Byte) : (pFormat b x t).Uses [b, .unitPrefix] (At [b]) := by
  unfold pFormat
  cases x with
  | none => exact (uses_plain b t).mono (by simp) (fun _ h => h)
  | some x =>
    obtain ⟨h, e, u⟩ := x
    refine uses_bind ((uses_prefix e).mono (by simp) (fun _ h => h)) fun p hp => ?_
    refine uses_bind (uses_read fun b hb => List.mem_cons_of_mem _ (hp b hb)) fun _ _ => ?_
    exact uses_bind (uses_print (by simp) _ _) fun _ _ => at_buf (by simp)

theorem at_mono {H H' : List SBuf} (h : ∀ b ∈ H, b ∈ H') (p : Ptr) (hp : At H p) : At H' p := fun b hb => h b (hp b hb)

theorem uses_vif (v : Byte) : (pVif v).Uses [.vif, .unitPrefix] (At [.vif]) := uses_format _ _ _

theorem uses_vib (r : Record) : (pVib r).Uses vibWrites (At vibHome) := by
  unfold pVib
  refine uses_bind (uses_lift _ _) fun v0 _ => ?_
  have const : ∀ t, At vibHome (.const t) := fun t b hb => by cases hb
  split
  · split
    · exact const _
    · exact (uses_format _ _ _).mono (by decide) (at_mono (by decide))
  split
  · split
    · exact const _
    · exact (uses_format _ _ _).mono (by decide) (at_mono (by decide))
  split
  · refine uses_bind (uses_lift _ _) fun c _ => ?_
    exact (uses_plain .vib c).mono (by decide) (at_mono (by decide))
  split
  · refine uses_bind ((uses_prefix _).mono (by decide) (fun _ h => h)) fun p hp => ?_
    refine uses_bind (uses_read (at_mono (by decide) p hp)) fun t _ => ?_
    refine uses_bind (uses_lift _ _) fun c _ => ?_
    exact uses_bind (uses_print (by decide) _ _) fun _ _ => at_buf (by decide)
  · exact (uses_vif _).mono (by decide) (at_mono (by decide))

theorem uses_unit (r : Record) : (pUnit r).Uses (.unit :: vibWrites) (At [.unit]) := by
  unfold pUnit
  refine uses_bind ((uses_vib r).mono (by decide) (fun _ h => h)) fun p hp => ?_
  refine uses_bind (uses_read (at_mono (by decide) p hp)) fun t _ => ?_
  exact uses_bind (uses_print (by decide) _ _) fun _ _ => at_buf (by decide)

theorem uses_decode (r : Record) : (pDecode r).Uses [.decode] (At [.decode]) := by
  unfold pDecode
  refine uses_bind (uses_load (by decide) _ _) fun old _ => ?_
  refine uses_bind (uses_lift _ _) fun m _ => ?_
  exact uses_bind (uses_update (by decide) _ _ _ _) fun _ _ => at_buf (by decide)

theorem uses_value (r : Record) : (pValue r).Uses [.value, .decode] (At [.value]) := by
  unfold pValue
  refine uses_bind ((uses_decode r).mono (by decide) (fun _ h => h)) fun p hp => ?_
  refine uses_bind (uses_read (at_mono (by decide) p hp)) fun t _ => ?_
  exact uses_bind (uses_print (by decide) _ _) fun _ _ => at_buf (by decide)

theorem uses_manufacturer (b1 b2 : Byte) : (pManufacturer b1 b2).Uses [.manufacturer] (At [.manufacturer]) := by
  refine ⟨by decide, by decide, by decide, fun y => ⟨by decide, fun x => ?_⟩⟩
  refine uses_bind (uses_lift _ _) fun t _ => ?_
  exact uses_bind (uses_bytes (by decide) _ _) fun _ _ => at_buf (by decide)

theorem uses_product (h : VarHeader) : (pProduct h).Uses [.product] (At [.product]) := by
  refine uses_bind (uses_lift _ _) fun t _ => ?_
  refine uses_bind (uses_bytes (by decide) _ _) fun _ _ => ?_
  exact uses_bind (uses_bytes (by decide) _ _) fun _ _ => at_buf (by decide)

theorem uses_address (f : Frame) : (pAddress f).Uses [.address] (At [.address]) := by
  refine uses_bind (uses_lift _ _) fun t _ => ?_
  cases t with
  | none => exact fun b hb => by cases hb
  | some t => exact uses_plain .address t

theorem uses_header (e : List Byte) (h : VarHeader) : (pHeaderXml e h).Uses headerWrites (At [.headerXml]) := by
  unfold pHeaderXml
  have put := fun n t => uses_put (B := headerWrites) (b := .headerXml) (by decide) n t
  have lift : ∀ {α : Type} (x : C α), (pLift x).Uses headerWrites (fun _ => True) := fun x => uses_lift _ x
  refine uses_bind (put _ _) fun _ _ => uses_bind (lift _) fun _ _ => uses_bind (put _ _) fun _ _ => uses_bind (lift _) fun _ _ => uses_bind (lift _) fun _ _ => ?_
  refine uses_bind ((uses_manufacturer _ _).mono (by decide) (at_mono (by decide))) fun p hp => uses_bind (uses_read hp) fun _ _ => ?_
  refine uses_bind (put _ _) fun _ _ => uses_bind (put _ _) fun _ _ => ?_
  refine uses_bind ((uses_product _).mono (by decide) (at_mono (by decide))) fun p hp => uses_bind (uses_read hp) fun _ _ => ?_
  refine uses_bind (lift _) fun _ _ => uses_bind (put _ _) fun _ _ => ?_
  refine uses_bind ((uses_plain .medium _).mono (by decide) (at_mono (by decide))) fun p hp => uses_bind (uses_read hp) fun _ _ => ?_
  refine uses_bind (lift _) fun _ _ => uses_bind (put _ _) fun _ _ => uses_bind (put _ _) fun _ _ => uses_bind (put _ _) fun _ _ => ?_
  refine uses_bind (lift _) fun _ _ => uses_bind (lift _) fun _ _ => uses_bind (put _ _) fun _ _ => uses_bind (put _ _) fun _ _ => ?_
  exact at_buf (by decide)

theorem uses_fields (e : List Byte) (n : Nat) (r : Record) : (pRecordFields e n r).Uses recordWrites (fun _ => True) := by
  have put := fun n t => uses_put (B := recordWrites) (b := .recordXml) (by decide) n t
  have lift : ∀ {α : Type} (x : C α), (pLift x).Uses recordWrites (fun _ => True) := fun x => uses_lift _ x
  unfold pRecordFields
  split
  · exact uses_bind (put _ _) fun _ _ => trivial
  split
  · exact uses_bind (put _ _) fun _ _ => trivial
  refine uses_bind ((uses_plain .function _).mono (by decide) (at_mono (by decide))) fun p hp => uses_bind (uses_read hp) fun _ _ => ?_
  refine uses_bind (lift _) fun _ _ => uses_bind (put _ _) fun _ _ => uses_bind (lift _) fun _ _ => uses_bind (put _ _) fun n _ => ?_
  refine uses_bind (Q := fun _ => True) ?_ fun _ _ => ?_
  · unfold pTariff
    refine uses_bind (lift _) fun ta _ => ?_
    split
    · exact uses_bind (put _ _) fun _ _ => uses_bind (lift _) fun _ _ => put _ _
    · trivial
  refine uses_bind ((uses_unit _).mono (by decide) (at_mono (by decide))) fun p hp => uses_bind (uses_read hp) fun _ _ => ?_
  exact uses_bind (lift _) fun _ _ => uses_bind (put _ _) fun _ _ => trivial

theorem uses_record (e : List Byte) (r : Record) (stamp : Option (List Byte)) (cnt frame : Int) : (pRecordXml e r stamp cnt frame).Uses recordWrites (At [.recordXml]) := by
  have put := fun n t => uses_put (B := recordWrites) (b := .recordXml) (by decide) n t
  have lift : ∀ {α : Type} (x : C α), (pLift x).Uses recordWrites (fun _ => True) := fun x => uses_lift _ x
  unfold pRecordXml
  refine uses_bind (Q := fun _ => True) ?_ fun n _ => ?_
  · unfold pRecordOpen
    split <;> exact put _ _
  refine uses_bind (uses_fields _ _ _) fun _ _ => ?_
  refine uses_bind ((uses_value _).mono (by decide) (at_mono (by decide))) fun p hp => uses_bind (uses_read hp) fun _ _ => ?_
  refine uses_bind (lift _) fun _ _ => uses_bind (put _ _) fun n _ => ?_
  refine uses_bind (Q := fun _ => True) ?_ fun n _ => ?_
  · cases stamp with
    | none => trivial
    | some t => exact put _ _
  exact uses_bind (put _ _) fun _ _ => at_buf (by decide)

end Mbus
