import Verif.Model.Calls
import Verif.Lemmas.ScanDefined
import Verif.Lemmas.ToolScan
import Verif.Lemmas.RecFree
import Verif.Spec.Calls
/- an invariant of a link is an invariant of every sequence of calls -/
namespace Mbus
open Spec

/-- `x` ends with a result in `Q` or with a fault in `E` -/
def Meets {α : Type} (E : Fault → Prop) (x : C α) (Q : α → Prop) : Prop :=
  match x with
  | .ok a => Q a
  | .error e => E e

theorem Meets.bind {α β : Type} {E : Fault → Prop} {x : C α} {Q : α → Prop} {k : α → C β} {R : β → Prop}
    (h : Meets E x Q) (hk : ∀ a, Q a → Meets E (k a) R) : Meets E (x >>= k) R := by
  cases x with
  | error e => exact h
  | ok a => exact hk a h

theorem Meets.mono {α : Type} {E : Fault → Prop} {x : C α} {Q R : α → Prop} (h : Meets E x Q) (hk : ∀ a, Q a → R a) : Meets E x R := by
  cases x with
  | error e => exact h
  | ok a => exact hk a h

theorem Meets.ok {α : Type} {E : Fault → Prop} {x : C α} {Q : α → Prop} {a : α} (h : Meets E x Q) (e : x = .ok a) : Q a := by
  rw [e] at h; exact h

theorem Meets.error {α : Type} {E : Fault → Prop} {x : C α} {Q : α → Prop} {f : Fault} (h : Meets E x Q) (e : x = .error f) : E f := by
  rw [e] at h; exact h

/-- The operations keep the invariant `I` as long as only frames in `P` are sent. -/
structure Keeps {σ : Type} (E : Fault → Prop) (o : Ops σ) (P : Frame → Prop) (I : σ → Prop) : Prop where
  send : ∀ s f, I s → P f → Meets E (o.send s f) fun q => I q.2.2 ∧ (q.2.1 = f ∨ q.2.1 = fixed f)
  recv : ∀ s f, I s → Meets E (o.recv s f) fun q => I q.2.2 ∧ (f.dataSize ≤ 252 → q.2.1.dataSize ≤ 252)
  purge : ∀ s, I s → Meets E (o.purge s) fun q => I q.2
  progress : ∀ s m, I s → I (o.progress s m)
  found : ∀ s a f, I s → I (o.found s a f)

section
variable {σ : Type} {E : Fault → Prop} {o : Ops σ} {P : Frame → Prop} {I : σ → Prop} (k : Keeps E o P I)
include k

theorem finish_keeps (s : σ) (f : Frame) (hi : I s) (hp : P f) :
    Meets E (o.send s f >>= fun q => if q.1 = -1 then .ok (-1, q.2.2) else .ok ((0 : Int), q.2.2)) fun q => I q.2 := by
  refine (k.send s f hi hp).bind fun q hq => ?_
  split <;> exact hq.1

theorem sendRequest_keeps (s : σ) (a : Int)
    (hp : P { frameNew TYPE_SHORT with control := 0x5B, address := UInt8.ofNat a.toNat } ∨ ¬ (0 ≤ a ∧ a ≤ 255)) (hi : I s) :
    Meets E (sendRequest o s a) fun q => I q.2 := by
  unfold sendRequest
  split
  · exact hi
  · next h =>
    refine finish_keeps k s _ hi (hp.resolve_right fun h' => h (isPrimary_false a h'))

theorem sendPing_keeps (s : σ) (a : Int) (d : Bool)
    (hp : P { frameNew TYPE_SHORT with control := 0x40, address := UInt8.ofNat a.toNat } ∨ ¬ (0 ≤ a ∧ a ≤ 255)) (hi : I s) :
    Meets E (sendPing o s a d) fun q => I q.2 := by
  unfold sendPing
  split
  · exact hi
  · next h =>
    refine (k.send s _ hi (hp.resolve_right fun h' => h (isPrimary_false a h'))).bind fun q hq => ?_
    obtain ⟨r, f, s1⟩ := q
    dsimp only
    split
    · exact hq.1
    split
    · exact (k.purge _ hq.1).bind fun q hq => hq
    · exact hq.1

theorem sendBaud_keeps (s : σ) (a b : Int)
    (hp : (∀ ci, baudCode b = some ci → P { frameNew TYPE_CONTROL with control := 0x53, address := UInt8.ofNat a.toNat, ci := ci }) ∨ ¬ (0 ≤ a ∧ a ≤ 255))
    (hi : I s) : Meets E (sendBaud o s a b) fun q => I q.2 := by
  unfold sendBaud
  split
  · exact hi
  · next h =>
    split
    · exact hi
    · next ci hc => exact finish_keeps k s _ hi (hp.resolve_right (fun h' => h (isPrimary_false a h')) ci hc)

theorem sendAppReset_keeps (s : σ) (a c : Int)
    (hp : ∀ d n, (c < 0 ∧ n = 0 ∨ 0 ≤ c ∧ c ≤ 255 ∧ n = 1 ∧ d.bytes.take 1 = [UInt8.ofNat c.toNat]) → 0 ≤ a ∧ a ≤ 255 →
      P { frameNew TYPE_LONG with control := 0x53, address := UInt8.ofNat a.toNat, ci := 0x50, dataSize := n, data := d })
    (hi : I s) : Meets E (sendAppReset o s a c) fun q => I q.2 := by
  unfold sendAppReset
  split
  · exact hi
  · next h =>
    have ha : 0 ≤ a ∧ a ≤ 255 := Decidable.byContradiction fun h' => h (isPrimary_false a h')
    split
    · exact hi
    · next hc =>
      by_cases h0 : c ≥ 0
      · obtain ⟨a0, a1, a2, a3, a4, a5, a6, a7, t, ht, hd⟩ := split8 (frameNew TYPE_LONG).data
        have hw : (frameNew TYPE_LONG).data.wr 0 (UInt8.ofNat c.toNat) =
            .ok ⟨UInt8.ofNat c.toNat :: a1 :: a2 :: a3 :: a4 :: a5 :: a6 :: a7 :: t, ht⟩ := by rw [hd]; rfl
        simp only [if_pos h0]
        rw [hw, ok_bind, ok_bind]
        exact finish_keeps k s _ hi (hp _ 1 (.inr ⟨h0, by omega, rfl, rfl⟩) ha)
      · simp only [if_neg h0]
        rw [ok_bind]
        exact finish_keeps k s _ hi (hp _ 0 (.inl ⟨by omega, rfl⟩) ha)

theorem sendUserData_keeps (s : σ) (a : Int) (data : List Byte) (n : Nat) (hd : n ≤ data.length)
    (hp : ∀ d, d.bytes.take n = data.take n → 1 ≤ n → n ≤ 252 → 0 ≤ a ∧ a ≤ 255 →
      P { frameNew TYPE_LONG with control := 0x53, address := UInt8.ofNat a.toNat, ci := 0x51, dataSize := n, data := d })
    (hi : I s) : Meets E (sendUserData o s a data n) fun q => I q.2 := by
  unfold sendUserData
  split
  · exact hi
  · next h =>
    have ha : 0 ≤ a ∧ a ≤ 255 := Decidable.byContradiction fun h' => h (isPrimary_false a h')
    split
    · exact hi
    · next hn =>
      have hc : copyInto (frameNew TYPE_LONG).data data n =
          .ok ⟨data.take n ++ (frameNew TYPE_LONG).data.bytes.drop n, by simp; omega⟩ := by
        unfold copyInto
        rw [if_neg (by omega), dif_pos ⟨by omega, hd⟩]
      show Meets E (copyInto (frameNew TYPE_LONG).data data n >>= _) _
      rw [hc, ok_bind]
      refine finish_keeps k s _ hi (hp _ ?_ (by omega) (by omega) ha)
      show (data.take n ++ _).take n = _
      rw [List.take_left' (by simp; omega)]

theorem setAddress_keeps (s : σ) (a b : Int)
    (hp : ∀ d, 0 ≤ b → b ≤ 252 → d.bytes.take 3 = [0x01, 0x7A, UInt8.ofNat b.toNat] → 0 ≤ a ∧ a ≤ 255 →
      P { frameNew TYPE_LONG with control := 0x53, address := UInt8.ofNat a.toNat, ci := 0x51, dataSize := 3, data := d })
    (hi : I s) : Meets E (setPrimaryAddress o s a b) fun q => I q.2 := by
  unfold setPrimaryAddress
  split
  · exact hi
  · next h =>
    have hb : 0 ≤ b ∧ b ≤ 255 := Decidable.byContradiction fun h' => h (isPrimary_false b h')
    split
    · exact hi
    · next hn =>
      refine sendUserData_keeps k s a _ 3 (by simp) (fun d h1 _ _ ha => hp d hb.1 (by omega) ?_ ha) hi
      rw [h1]
      have : b % 256 = b := by omega
      simp [ucharOfInt, this]

/-- frames of selections -/
def SelFrames (P : Frame → Prop) (text : List Byte) : Prop :=
  ∀ d, text.length = 16 → (∀ c ∈ text, IsHex c) → d.bytes.take 8 = selBytes text →
    P { frameNew TYPE_LONG with control := 0x73, address := 0xFD, ci := 0x52, dataSize := 8, data := d }

theorem sendSelect_keeps (s : σ) (m : List Byte) (hp : SelFrames P m) (hi : I s) : Meets E (sendSelect o s m) fun q => I q.2 := by
  unfold sendSelect
  by_cases hm : isSecondaryAddress m = true
  · obtain ⟨h1, h2⟩ := (isSecondary_iff m).mp hm
    obtain ⟨d, e1, e2⟩ := selectPack_eq (frameNew TYPE_LONG) m h1 h2
    rw [e1, ok_bind]
    dsimp only
    rw [if_neg (by decide)]
    exact finish_keeps k s _ hi (hp d h1 h2 e2)
  · rw [selectPack_bad _ _ (by simpa using hm)]
    exact hi

theorem select_keeps (s : σ) (m : List Byte) (hp : SelFrames P m) (hi : I s) : Meets E (selectSecondary o s m) fun q => I q.2 := by
  unfold selectSecondary
  split
  · exact hi
  refine (sendSelect_keeps k s m hp hi).bind fun q hq => ?_
  obtain ⟨r, s⟩ := q
  dsimp only
  split
  · exact hq
  refine (k.recv _ _ hq).bind fun q hq => ?_
  obtain ⟨r, f, s⟩ := q
  dsimp only
  split
  · exact hq.1
  split
  · exact (k.purge _ hq.1).bind fun q hq => hq
  split
  · refine (k.purge _ hq.1).bind fun q hq => ?_
    obtain ⟨r, s⟩ := q
    dsimp only
    split <;> exact hq
  · exact hq.1

variable (he : ∀ e, ParserFault e → E e)
include he

theorem probeSelected_keeps (s : σ) (hr : P { frameNew TYPE_SHORT with control := 0x5B, address := 0xFD }) (hi : I s) :
    Meets E (probeSelected o s) fun q => I q.2.2 := by
  unfold probeSelected
  refine (sendRequest_keeps k s 0xFD (.inl hr) hi).bind fun q hq => ?_
  obtain ⟨r, s⟩ := q
  dsimp only
  split
  · exact hq
  refine (k.recv _ _ hq).bind fun q hq => ?_
  obtain ⟨r, f, s⟩ := q
  dsimp only
  split
  · exact hq.1
  split
  · exact (k.purge _ hq.1).bind fun q hq => hq
  refine (k.purge _ hq.1).bind fun q hq2 => ?_
  obtain ⟨p, s⟩ := q
  dsimp only
  split
  · exact hq2
  split
  · have hw := address_within f (hq.2 (by decide))
    cases ha : getSecondaryAddress f with
    | error e => exact he _ (hw e ha)
    | ok a =>
      rw [ok_bind]
      cases a with
      | none => exact hq2
      | some a => exact k.found _ _ _ hq2
  · exact hq2

theorem probeLoop_keeps (m : List Byte) (hp : SelFrames P m) (hr : P { frameNew TYPE_SHORT with control := 0x5B, address := 0xFD }) (n : Nat) :
    ∀ (s : σ) (ret : Int), I s → Meets E (probeLoop o s m ret n) fun q => I q.2.2 := by
  induction n with
  | zero => intro s ret hi; exact hi
  | succ n ih =>
    intro s ret hi
    unfold probeLoop
    refine (select_keeps k s m hp hi).bind fun q hq => ?_
    obtain ⟨r, s⟩ := q
    dsimp only
    split
    · exact probeSelected_keeps k he s hr hq
    split
    · exact hq
    · exact ih s r hq

theorem probe_keeps (st : Settings) (s : σ) (m : List Byte) (hp : SelFrames P m)
    (hr : P { frameNew TYPE_SHORT with control := 0x5B, address := 0xFD }) (hi : I s) :
    Meets E (probeSecondary o st s m) fun q => I q.2.2 := by
  unfold probeSecondary
  split
  · exact hi
  · exact probeLoop_keeps k he m hp hr _ s 0 hi

theorem scanLoop_keeps (st : Settings) (p : Nat) (sub : σ → List Byte → C (Int × σ))
    (hp : ∀ m, SelFrames P m) (hr : P { frameNew TYPE_SHORT with control := 0x5B, address := 0xFD })
    (hsub : ∀ s m, m.length = 16 → I s → Meets E (sub s m) fun q => I q.2) (ds : List Byte) :
    ∀ (m : List Byte) (s : σ), m.length = 16 → I s → Meets E (scanLoop o st p sub m ds s) fun q => I q.2 := by
  induction ds with
  | nil => intro m s _ hi; exact hi
  | cons d ds ih =>
    intro m s hm hi
    unfold scanLoop
    have hm' : (m.set p d).length = 16 := by simpa using hm
    refine (probe_keeps k he st _ _ (hp _) hr (k.progress _ _ hi)).bind fun q hq => ?_
    obtain ⟨r, a, s⟩ := q
    dsimp only
    split
    · exact ih _ _ hm' hq
    split
    · refine (hsub _ _ hm' hq).bind fun q hq => ?_
      exact ih _ _ hm' hq
    split
    · exact ih _ _ hm' hq
    · exact hq

theorem scanAt_keeps (st : Settings) (hp : ∀ m, SelFrames P m) (hr : P { frameNew TYPE_SHORT with control := 0x5B, address := 0xFD }) (n : Nat) :
    ∀ (s : σ) (m : List Byte), m.length = 16 → I s → Meets E (scanAt o st n s m) fun q => I q.2 := by
  induction n with
  | zero => intro s m _ hi; exact hi
  | succ n ih =>
    intro s m hm hi
    unfold scanAt
    dsimp only
    rw [rd_ok (by omega), ok_bind]
    split
    · exact scanLoop_keeps k he st _ _ hp hr ih _ _ _ hm hi
    split
    · exact (ih s m hm hi).bind fun q hq => hq
    · exact scanLoop_keeps k he st _ _ hp hr ih _ _ _ hm hi

theorem scan_keeps (st : Settings) (s : σ) (pos : Int) (m : List Byte) (hp : ∀ m, SelFrames P m)
    (hr : P { frameNew TYPE_SHORT with control := 0x5B, address := 0xFD }) (hi : I s) :
    Meets E (scanRange o st s pos m) fun q => I q.2 := by
  unfold scanRange
  split
  · exact hi
  split
  · exact hi
  · exact scanAt_keeps k he st hp hr _ s m (by omega) hi

omit he in
theorem readSlave_keeps (s : σ) (a : Address) (reply : Frame)
    (hp : match a with
      | .primary a => P { frameNew TYPE_SHORT with control := 0x5B, address := UInt8.ofNat a.toNat } ∨ ¬ (0 ≤ a ∧ a ≤ 255)
      | .secondary t => SelFrames P t ∧ P { frameNew TYPE_SHORT with control := 0x5B, address := 0xFD }) (hi : I s) :
    Meets E (readSlave o s a reply) fun q => I q.2.2 := by
  unfold readSlave
  have last : ∀ r s, I s → Meets E (if r = (-1 : Int) then .ok (-1, reply, s) else do
      let (c, reply, s) ← o.recv s reply
      if c ≠ 0 then .ok (-1, reply, s) else .ok (0, reply, s)) fun q : Int × Frame × σ => I q.2.2 := by
    intro r s hi
    split
    · exact hi
    refine (k.recv _ _ hi).bind fun q hq => ?_
    dsimp only
    split <;> exact hq.1
  cases a with
  | primary a => exact (sendRequest_keeps k s a hp hi).bind fun q hq => last _ _ hq
  | secondary t =>
    refine (select_keeps k s t hp.1 hi).bind fun q hq => ?_
    dsimp only
    split
    · exact last (-1) _ hq
    split
    · exact last (-1) _ hq
    split
    · exact last (-1) _ hq
    · exact (sendRequest_keeps k _ 0xFD (.inl hp.2) hq).bind fun q hq => last _ _ hq

/-- a request frame of `mbus_sendrecv_request` -/
def ReqOf (a : Byte) (f : Frame) : Prop :=
  f.type = 2 ∧ f.start1 = 0x10 ∧ f.stop = 0x16 ∧ (f.control = 0x5B ∨ f.control = 0x7B) ∧ f.address = a

omit k he in
theorem reqOf_fixed {a : Byte} {f : Frame} (h : ReqOf a f) : ReqOf a (fixed f) := h

theorem srLoop_keeps (a : Byte) (hp : ∀ f, ReqOf a f → P f) (hd : E .doubleFree) (mr mf : Int) (s : σ) (req : Frame) (done : List Frame)
    (cur : Frame) (x : FrameData) (p : RecPtr) (retry count : Int) (hreq : ReqOf a req) (hs : cur.dataSize ≤ 252) (hi : I s) :
    Meets E (sendrecvLoop o mr mf s req done cur x p retry count) fun r => I r.state := by
  have k1 : ∀ s f c f' s', I s → ReqOf a f → o.send s f = .ok (c, f', s') → I s' ∧ ReqOf a f' := by
    intro s f c f' s' hi hf h
    have := (k.send s f hi (hp f hf)).ok h
    refine ⟨this.1, ?_⟩
    rcases this.2 with e | e <;> (have e : f' = _ := e; rw [e]; exact hf)
  have k2 : ∀ s f e, I s → ReqOf a f → o.send s f = .error e → E e := fun s f e hi hf h => (k.send s f hi (hp f hf)).error h
  have k3 : ∀ s f c f' s', I s → o.recv s f = .ok (c, f', s') → I s' ∧ (f.dataSize ≤ 252 → f'.dataSize ≤ 252) :=
    fun s f c f' s' hi h => (k.recv s f hi).ok h
  have k4 : ∀ s f e, I s → o.recv s f = .error e → E e := fun s f e hi h => (k.recv s f hi).error h
  have k5 : ∀ s c s', I s → o.purge s = .ok (c, s') → I s' := fun s c s' hi h => (k.purge s hi).ok h
  have k6 : ∀ s e, I s → o.purge s = .error e → E e := fun s e hi h => (k.purge s hi).error h
  have k7 : ∀ (f : Frame) x e, f.dataSize ≤ 252 → frameDataParse f x = .error e → E e := fun f x e hs h => he e (frameDataParse_fault f x hs e h)
  have k8 : ∀ (p : RecPtr) e, p.free = .error e → E e := by
    intro p e h
    cases p <;> cases h
    exact hd
  have k9 : ∀ f : Frame, ReqOf a f → ReqOf a { f with control := f.control ^^^ MASK_FCB } := by
    intro f ⟨h1, h2, h3, h4, h5⟩
    refine ⟨h1, h2, h3, ?_, h5⟩
    rcases h4 with h | h <;> simp only [h]
    · exact .inr rfl
    · exact .inl rfl
  have k10 : (frameNew TYPE_ANY).dataSize ≤ 252 := by decide
  have ok : ∀ c ch (p : RecPtr) s, I s → Meets E (Except.ok (⟨c, ch, p, s⟩ : SrOut σ)) fun r => I r.state := fun _ _ _ _ h => h
  have er : ∀ e, E e → Meets E (Except.error e : C (SrOut σ)) fun r => I r.state := fun _ h => h
  clear k he hp hd
  fun_induction sendrecvLoop o mr mf s req done cur x p retry count
  all_goals grind

theorem sendrecv_keeps (st : Settings) (s : σ) (a : Int) (reply : Frame) (mf : Int) (hs : reply.dataSize ≤ 252) (hd : E .doubleFree)
    (hp : ∀ f, 0 ≤ a ∧ a ≤ 255 → ReqOf (UInt8.ofNat a.toNat) f → P f) (hi : I s) :
    Meets E (sendrecvRequest o st s a reply mf) fun r => I r.state := by
  unfold sendrecvRequest
  split
  · exact hi
  · next h =>
    have ha : 0 ≤ a ∧ a ≤ 255 := Decidable.byContradiction fun h' => h (isPrimary_false a h')
    exact srLoop_keeps k he _ (fun f hf => hp f ha hf) hd _ _ _ _ _ _ _ _ _ _ ⟨rfl, rfl, rfl, .inr rfl, rfl⟩ hs hi

end

theorem packs_req {a : Byte} {f : Frame} (h : ReqOf a f) : ∃ c, (c = 0x5B ∨ c = 0x7B) ∧ Packs f (.short c a) := by
  obtain ⟨h1, h2, h3, h4, h5⟩ := h
  refine ⟨f.control, h4, packBytes_wire f _ ?_ ⟨h1, rfl, h5⟩ ⟨fun _ => h3, h2, ?_⟩⟩
  · show f.control ∈ shortCodes
    rcases h4 with h | h <;> rw [h] <;> decide
  · rintro (h | h) <;> rw [h1] at h <;> cases h

/-- a link keeps `I` as long as only frames in `P` are sent -/
structure LinkKeeps {σ : Type} (E : Fault → Prop) (l : Link σ) (P : Frame → Prop) (I : σ → Prop) : Prop where
  send : ∀ s f, I s → P f → Meets E (l.send s f) fun q => I q.2.2 ∧ (q.2.1 = f ∨ q.2.1 = fixed f)
  recv : ∀ s f, I s → Meets E (l.recv s f) fun q => I q.2.2 ∧ (f.dataSize ≤ 252 → q.2.1.dataSize ≤ 252)

section
variable {σ : Type} {E : Fault → Prop} {l : Link σ} {P : Frame → Prop} {I : σ → Prop} (k : LinkKeeps E l P I)
include k

theorem recvFrame_meets (purge : Int) (s : σ) (f : Frame) (hi : I s) :
    Meets E (recvFrame l purge s f) fun q => I q.2.2 ∧ (f.dataSize ≤ 252 → q.2.1.dataSize ≤ 252) := by
  unfold recvFrame
  refine (k.recv s f hi).bind fun q hq => ?_
  obtain ⟨r, f1, s1⟩ := q
  have again := (k.recv s1 f1 hq.1).mono fun q hq2 => (⟨hq2.1, fun h => hq2.2 (hq.2 h)⟩ : I q.2.2 ∧ (f.dataSize ≤ 252 → q.2.1.dataSize ≤ 252))
  dsimp only
  split
  · split
    · exact again
    · exact hq
  · split
    · split
      · exact again
      · exact hq
    · exact hq

theorem purgeLoop_meets (purge : Int) (s : σ) (f : Frame) (n : Int) (hi : I s) : Meets E (purgeLoop l purge s f n) fun q => I q.2 := by
  fun_induction purgeLoop l purge s f n with
  | case1 s f n e h => exact (recvFrame_meets k purge s f hi).error h
  | case2 s f n err f' s' h hc => exact ((recvFrame_meets k purge s f hi).ok h).1
  | case3 s f n err f' s' h hc ih => exact ih ((recvFrame_meets k purge s f hi).ok h).1

theorem ops_keeps (purge : Int) : Keeps E (l.ops purge) P I :=
  ⟨k.send, recvFrame_meets k purge, fun s hi => purgeLoop_meets k purge s _ _ hi, fun _ _ h => h, fun _ _ _ h => h⟩

omit k in
theorem address_byte {a : Int} (h : 0 ≤ a ∧ a ≤ 255) : IsAddress a (UInt8.ofNat a.toNat) := by
  unfold IsAddress
  simp
  omega

theorem call_keeps (c : Call) (he : ∀ e, MayFault c e → E e) (hc : Proper c)
    (hp : ∀ f t, Packs f t → t.Legal → Sends c t → P f) (h : Settings × σ) (hi : I h.2) :
    Meets E (c.run l h) fun h' => I h'.2 := by
  have ko := ops_keeps k h.1.purgeFirst
  have hsel : ∀ (m : List Byte), (∀ t, Selects m t → Sends c t) → SelFrames P m := by
    intro m hm d h1 h2 h3
    have hl := selBytes_length m ⟨h1, h2⟩
    have hpk := packs_long 0x73 0xFD 0x52 d 8 (by omega)
    rw [h3] at hpk
    exact hp _ _ hpk ⟨(by decide : (0x73 : Byte) ∈ dataCodes), by omega⟩ (hm _ ⟨rfl, rfl, rfl, hl, ⟨h1, h2⟩, fun hid => selBytes_eq m h1 h2 hid⟩)
  have hreq : Sends c (.short 0x5B 0xFD) → P { frameNew TYPE_SHORT with control := 0x5B, address := 0xFD } :=
    fun hs => hp _ _ (packs_short 0x5B 0xFD) (by decide : (0x5B : Byte) ∈ shortCodes) hs
  have h53 : (0x53 : Byte) ∈ dataCodes := by decide
  cases c with
  | send f =>
    obtain ⟨t, h1, h2, h3⟩ := hc
    exact (ko.send _ _ hi (hp f t (packBytes_wire f t h1 h2 (hs_of f t h2 h3)) h1 h2)).bind fun q hq => hq.1
  | recv f => exact (ko.recv _ _ hi).bind fun q hq => hq.1
  | purge => exact (ko.purge _ hi).bind fun q hq => hq
  | request a =>
    refine (sendRequest_keeps ko _ a ?_ hi).bind fun q hq => hq
    by_cases ha : 0 ≤ a ∧ a ≤ 255
    · exact .inl (hp _ _ (packs_short 0x5B _) (by decide : (0x5B : Byte) ∈ shortCodes) ⟨_, address_byte ha, rfl⟩)
    · exact .inr ha
  | ping a d =>
    refine (sendPing_keeps ko _ a d ?_ hi).bind fun q hq => hq
    by_cases ha : 0 ≤ a ∧ a ≤ 255
    · exact .inl (hp _ _ (packs_short 0x40 _) (by decide : (0x40 : Byte) ∈ shortCodes) ⟨_, address_byte ha, rfl⟩)
    · exact .inr ha
  | baud a b =>
    refine (sendBaud_keeps ko _ a b ?_ hi).bind fun q hq => hq
    by_cases ha : 0 ≤ a ∧ a ≤ 255
    · refine .inl fun ci hci => hp _ _ (packs_control 0x53 _ ci) ⟨h53, by simp⟩ ⟨_, ci, address_byte ha, ?_, rfl⟩
      apply Decidable.byContradiction
      intro hn
      unfold baudCode at hci
      unfold baudTable at hn
      grind
    · exact .inr ha
  | reset a x =>
    refine (sendAppReset_keeps ko _ a x ?_ hi).bind fun q hq => hq
    intro d n hn ha
    have hpk := packs_long 0x53 (UInt8.ofNat a.toNat) 0x50 d n (by omega)
    rcases hn with ⟨h1, rfl⟩ | ⟨h1, h2, rfl, h3⟩
    · exact hp _ _ hpk ⟨h53, by simp⟩ ⟨_, address_byte ha, .inl ⟨h1, rfl⟩⟩
    · rw [h3] at hpk
      exact hp _ _ hpk ⟨h53, by simp⟩ ⟨_, address_byte ha, .inr ⟨_, address_byte ⟨h1, h2⟩, rfl⟩⟩
  | userData a data n =>
    refine (sendUserData_keeps ko _ a data n hc ?_ hi).bind fun q hq => hq
    intro d h1 h2 h3 ha
    have hpk := packs_long 0x53 (UInt8.ofNat a.toNat) 0x51 d n h3
    rw [h1] at hpk
    exact hp _ _ hpk ⟨h53, by simp; omega⟩ ⟨_, address_byte ha, h2, h3, rfl⟩
  | setAddress a b =>
    refine (setAddress_keeps ko _ a b ?_ hi).bind fun q hq => hq
    intro d h1 h2 h3 ha
    have hpk := packs_long 0x53 (UInt8.ofNat a.toNat) 0x51 d 3 (by omega)
    rw [h3] at hpk
    refine hp _ _ hpk ⟨h53, by simp⟩ ⟨_, _, address_byte ha, address_byte (a := b) ⟨h1, by omega⟩, ?_, rfl⟩
    simp
    omega
  | sendSelect m => exact (sendSelect_keeps ko _ m (hsel m fun _ h => h) hi).bind fun q hq => hq
  | select m => exact (select_keeps ko _ m (hsel m fun _ h => h) hi).bind fun q hq => hq
  | probe m => exact (probe_keeps ko he _ _ m (hsel m fun _ h => .inl h) (hreq (.inr rfl)) hi).bind fun q hq => hq
  | scan p m => exact (scan_keeps ko he _ _ p m (fun m => hsel m fun _ h => .inl ⟨m, h⟩) (hreq (.inr rfl)) hi).bind fun q hq => hq
  | readSlave a f =>
    refine (readSlave_keeps ko _ a f ?_ hi).bind fun q hq => hq
    cases a with
    | primary a =>
      by_cases ha : 0 ≤ a ∧ a ≤ 255
      · exact .inl (hp _ _ (packs_short 0x5B _) (by decide : (0x5B : Byte) ∈ shortCodes) ⟨_, address_byte ha, rfl⟩)
      · exact .inr ha
    | secondary t => exact ⟨hsel t fun _ h => .inl h, hreq (.inr rfl)⟩
  | sendrecv a f n =>
    refine (sendrecv_keeps ko (fun e h => he e (.inl h)) _ _ a f n hc (he _ (.inr rfl)) ?_ hi).bind fun q hq => hq
    intro f ha hf
    obtain ⟨c, h1, h2⟩ := packs_req hf
    refine hp _ _ h2 ?_ ⟨_, address_byte ha, ?_⟩
    · rcases h1 with rfl | rfl
      · exact (by decide : (0x5B : Byte) ∈ shortCodes)
      · exact (by decide : (0x7B : Byte) ∈ shortCodes)
    · rcases h1 with rfl | rfl
      · exact .inl rfl
      · exact .inr rfl
  | option w v => exact hi

end
end Mbus
