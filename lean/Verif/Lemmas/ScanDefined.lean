import Verif.Lemmas.ScanLog
import Verif.Lemmas.SelectWire
/- probe and scan only fail where reading a response fails -/
namespace Mbus
open Spec

/-- undefined behaviour of `x` is limited to `E` -/
def Within {α : Type} (E : Fault → Prop) (x : C α) : Prop := ∀ e, x = .error e → E e

theorem within_ok {α : Type} {E : Fault → Prop} (a : α) : Within E (.ok a) := by intro e h; cases h

theorem within_bind {α β : Type} {E : Fault → Prop} {x : C α} {k : α → C β} (hx : Within E x) (hk : ∀ a, x = .ok a → Within E (k a)) :
    Within E (x >>= k) := by
  intro e h
  cases x with
  | error e' => cases h; exact hx _ rfl
  | ok a => exact hk a rfl e h

theorem within_of_ok {α : Type} {E : Fault → Prop} {x : C α} (h : ∃ q, x = .ok q) : Within E x := by
  obtain ⟨q, h⟩ := h
  rw [h]; exact within_ok q


/-- the operations of a handle behave, up to `E` when the address is read from a received frame -/
structure Behaves {σ : Type} (E : Fault → Prop) (o : Ops σ) : Prop where
  select : ∀ s m, ∃ q, sendSelect o s m = .ok q
  request : ∀ s, ∃ q, sendRequest o s 0xFD = .ok q
  recv : ∀ s, ∃ q, o.recv s Frame.zero = .ok q
  purge : ∀ s, ∃ q, o.purge s = .ok q
  address : ∀ s c g s', o.recv s Frame.zero = .ok (c, g, s') → Within E (getSecondaryAddress g)

section
variable {σ : Type} {E : Fault → Prop} {o : Ops σ} (hb : Behaves E o)
include hb

theorem select_within (s : σ) (m : List Byte) : Within E (selectSecondary o s m) := by
  unfold selectSecondary
  split
  · exact within_ok _
  refine within_bind (within_of_ok (hb.select s m)) (fun ⟨r, s1⟩ _ => ?_)
  dsimp only
  split
  · exact within_ok _
  refine within_bind (within_of_ok (hb.recv _)) (fun ⟨c, g, s2⟩ _ => ?_)
  dsimp only
  split
  · exact within_ok _
  split
  · exact within_bind (within_of_ok (hb.purge _)) (fun ⟨p, s3⟩ _ => within_ok _)
  split
  · refine within_bind (within_of_ok (hb.purge _)) (fun ⟨p, s3⟩ _ => ?_)
    dsimp only
    split <;> exact within_ok _
  · exact within_ok _

theorem probeSelected_within (s : σ) : Within E (probeSelected o s) := by
  unfold probeSelected
  refine within_bind (within_of_ok (hb.request s)) (fun ⟨r, s1⟩ _ => ?_)
  dsimp only
  split
  · exact within_ok _
  refine within_bind (within_of_ok (hb.recv _)) (fun ⟨c, g, s2⟩ hr => ?_)
  dsimp only
  split
  · exact within_ok _
  split
  · exact within_bind (within_of_ok (hb.purge _)) (fun ⟨p, s3⟩ _ => within_ok _)
  refine within_bind (within_of_ok (hb.purge _)) (fun ⟨p, s3⟩ _ => ?_)
  dsimp only
  split
  · exact within_ok _
  split
  · refine within_bind (hb.address _ _ _ _ hr) (fun x _ => ?_)
    cases x <;> exact within_ok _
  · exact within_ok _

theorem probeLoop_within (m : List Byte) (n : Nat) : ∀ (ret : Int) (s : σ), Within E (probeLoop o s m ret n) := by
  induction n with
  | zero => intro ret s; exact within_ok _
  | succ n ih =>
    intro ret s
    rw [probeLoop]
    refine within_bind (select_within hb s m) (fun ⟨r, s1⟩ _ => ?_)
    dsimp only
    split
    · exact probeSelected_within hb s1
    split
    · exact within_ok _
    · exact ih _ _

theorem probe_within (st : Settings) (s : σ) (m : List Byte) : Within E (probeSecondary o st s m) := by
  unfold probeSecondary
  split
  · exact within_ok _
  · exact probeLoop_within hb m _ 0 s

theorem scanLoop_within (st : Settings) (p : Nat) (sub : σ → List Byte → C (Int × σ)) (hsub : ∀ s m, m.length = 16 → Within E (sub s m)) (ds : List Byte) :
    ∀ (m : List Byte) (_ : m.length = 16) (s : σ), Within E (scanLoop o st p sub m ds s) := by
  induction ds with
  | nil => intro m _ s; exact within_ok _
  | cons d ds ih =>
    intro m hl s
    have hl' : (m.set p d).length = 16 := by simp [hl]
    rw [scanLoop]
    refine within_bind (probe_within hb st _ _) (fun ⟨r, a, s1⟩ _ => ?_)
    dsimp only
    split
    · exact ih _ hl' _
    split
    · exact within_bind (hsub _ _ hl') (fun ⟨r2, s2⟩ _ => ih _ hl' _)
    split
    · exact ih _ hl' _
    · exact within_ok _

theorem scanAt_within (st : Settings) (n : Nat) : ∀ (m : List Byte) (_ : m.length = 16) (s : σ), Within E (scanAt o st n s m) := by
  induction n with
  | zero => intro m _ s; exact within_ok _
  | succ n ih =>
    intro m hl s
    rw [scanAt]
    refine within_bind ?_ (fun c _ => ?_)
    · rw [rd_ok (by omega)]; exact within_ok _
    split
    · exact scanLoop_within hb st _ _ (fun s m hm => ih m hm s) _ m hl s
    split
    · exact within_bind (ih m hl s) (fun ⟨r, s1⟩ _ => within_ok _)
    · exact scanLoop_within hb st _ _ (fun s m hm => ih m hm s) _ m hl s

theorem scan_within (st : Settings) (s : σ) (pos : Int) (m : List Byte) : Within E (scanRange o st s pos m) := by
  unfold scanRange
  split
  · exact within_ok _
  · next hl =>
    split
    · exact within_ok _
    · exact scanAt_within hb st _ m (by omega) s

end

theorem address_within (f : Frame) (hs : f.dataSize ≤ 252) : Within ParserFault (getSecondaryAddress f) := by
  intro e h
  unfold getSecondaryAddress at h
  by_cases hci : f.ci ≠ 0x72
  · rw [if_pos hci] at h; cases h
  rw [if_neg hci] at h
  have hci : f.ci = 0x72 := Decidable.of_not_not hci
  obtain ⟨c1, _, c3⟩ := frameDataParse_cases f FrameData.new
  by_cases hd : f.control &&& 0x40 = 0
  · have c3 := c3 hd hci
    cases hp : frameDataParse f FrameData.new with
    | error e' =>
      rw [hp] at h c3
      cases h
      by_cases h0 : f.dataSize = 0
      · rw [if_pos h0] at c3; cases c3
      rw [if_neg h0] at c3
      cases hv : variableParse f FrameData.new.var with
      | ok q => rw [hv] at c3; cases c3
      | error e =>
        rw [hv] at c3
        cases c3
        rcases variableParse_fault f _ hs _ hv with ⟨h, _⟩ | ⟨h, _⟩ | ⟨h, _⟩ <;> subst h <;> simp [ParserFault, ParserFault]
    | ok q =>
      obtain ⟨r, x⟩ := q
      rw [hp, ok_bind] at h
      simp only at h
      by_cases hr : r = -1
      · rw [if_pos hr] at h; cases h
      rw [if_neg hr] at h
      obtain ⟨v, hv, _⟩ := C15_hex_text x.var.header.idBcd.bytes 4 (by omega) (by omega) (by simp)
      have hm : x.var.header.manufacturer.bytes.length = 2 := by simp
      rw [hv, ok_bind, Buf.rd, rd_ok (by omega), ok_bind, Buf.rd, rd_ok (by omega)] at h
      cases h
  · rw [c1 hd] at h
    cases h

/-- both transports behave, whatever the bus does -/
theorem bus_behaves (k : Kind) (env : Env) (purge : Int) : Behaves ParserFault ((busLink k env).ops purge) := by
  have hsend : ∀ b f t, Telegram.Legal t → Packs f t → ∃ q, (busLink k env).send b f = .ok q := by
    intro b f t hl hp
    by_cases ho : IsOpen k env
    · exact ⟨_, bus_send k env ho b f t hl hp⟩
    · cases k with
      | tcp => exact absurd (.inl rfl) ho
      | serial =>
        refine ⟨_, bus_send_closed env ?_ b f⟩
        cases ht : env.tty with
        | false => rfl
        | true => exact absurd (.inr ht) ho
  refine ⟨fun s m => ?_, fun s => ?_, fun s => ?_, fun s => ?_, fun s c g s' h => ?_⟩
  · unfold sendSelect
    by_cases hm : AddressMask m
    · obtain ⟨d, h1, h2⟩ := selectPack_eq (frameNew TYPE_LONG) m hm.1 hm.2
      have hlen := selBytes_length m hm
      have hp := packs_long 0x73 0xFD 0x52 d 8 (by omega)
      rw [h2] at hp
      obtain ⟨⟨r, f, s'⟩, hs⟩ := hsend s _ _ (show Telegram.Legal (.data 0x73 0xFD 0x52 (selBytes m)) from ⟨(by decide : (0x73 : Byte) ∈ dataCodes), by omega⟩) hp
      rw [h1, ok_bind]
      simp only
      rw [if_neg (by decide)]
      show ∃ q, ((busLink k env).send s _ >>= _) = _
      rw [hs, ok_bind]
      simp only
      split <;> exact ⟨_, rfl⟩
    · have : isSecondaryAddress m = false := by
        cases hs : isSecondaryAddress m with
        | false => rfl
        | true => exact absurd (((C52_address_validation m 0).1).mp hs) hm
      rw [selectPack_bad _ _ this]
      exact ⟨_, rfl⟩
  · unfold sendRequest
    rw [if_neg (by decide)]
    obtain ⟨⟨r, f, s'⟩, hs⟩ := bus_send_defined k env s { frameNew TYPE_SHORT with control := MASK_REQ_UD2 ||| MASK_DIR_M2S, address := UInt8.ofNat (0xFD : Int).toNat } rfl
    show ∃ q, ((busLink k env).send s _ >>= _) = _
    simp only
    rw [hs, ok_bind]
    simp only
    split <;> exact ⟨_, rfl⟩
  · exact recvFrame_defined k env purge s _
  · obtain ⟨r, b', h, _⟩ := purge_sent k env purge s
    exact ⟨_, h⟩
  · exact address_within g ((handle_sound k env purge).recv _ _ _ _ _ (by decide) h)

end Mbus
