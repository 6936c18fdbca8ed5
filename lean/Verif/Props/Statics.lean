import Verif.Lemmas.StaticsXml
import Verif.Props.Units
import Verif.Props.VifNames
/-
C112: the texts the lookups return live in static buffers.
-/
namespace Mbus
open Spec

/-- the buffers a function may write -/
def TextKind.writes : TextKind → List SBuf
  | .manufacturer => [.manufacturer]
  | .product => [.product]
  | .fixedMedium => [.fixedMedium]
  | .fixedUnit => [.fixedUnit]
  | .medium => [.medium]
  | .unitPrefix => [.unitPrefix]
  | .vif => [.vif, .unitPrefix]
  | .error => [.error]
  | .vib => vibWrites
  | .decode => [.decode]
  | .unit => .unit :: vibWrites
  | .value => [.value, .decode]
  | .function => [.function]
  | .fixedFunction => [.fixedFunction]
  | .headerXml => headerWrites
  | .recordXml => recordWrites
  | .address => [.address]

/-- the buffers its result may point to -/
def TextKind.home : TextKind → List SBuf
  | .manufacturer => [.manufacturer]
  | .product => [.product]
  | .fixedMedium => [.fixedMedium]
  | .fixedUnit => [.fixedUnit]
  | .medium => [.medium]
  | .unitPrefix => [.unitPrefix]
  | .vif => [.vif]
  | .error => [.error]
  | .vib => vibHome
  | .decode => [.decode]
  | .unit => [.unit]
  | .value => [.value]
  | .function => [.function]
  | .fixedFunction => [.fixedFunction]
  | .headerXml => [.headerXml]
  | .recordXml => [.recordXml]
  | .address => [.address]

/-- The table of the specification is right: a call whose kind is not listed writes none of the buffers the text may live in. -/
theorem table_sound (k d : TextKind) (h : d ∉ invalidatedBy k) : ∀ b ∈ TextKind.home k, b ∉ TextKind.writes d := by
  cases k <;> cases d <;> first | (intro b; revert b; decide) | exact absurd (by decide) h

theorem caseOf_nonul (t : List (Nat × List Byte)) (d : List Byte) (ht : ∀ p ∈ t, (0 : Byte) ∉ p.2) (hd : (0 : Byte) ∉ d) (n : Nat) : (0 : Byte) ∉ (caseOf n t).getD d := by
  unfold caseOf
  induction t with
  | nil => exact hd
  | cons a t ih =>
    rw [List.lookup_cons]
    split
    · exact ht a (List.mem_cons_self ..)
    · exact ih (fun p hp => ht p (List.mem_cons_of_mem _ hp))

theorem hexInt_nonul (z : Int) : (0 : Byte) ∉ fmtHexInt z := by
  unfold fmtHexInt padZero
  intro h
  rw [List.mem_append] at h
  rcases h with h | h
  · simp at h
  · exact hexDigits_nonul _ h

theorem secondary_text (f : Frame) (t : List Byte) (h : getSecondaryAddress f = .ok (some t)) : (0 : Byte) ∉ t ∧ t.length < 32 := by
  unfold getSecondaryAddress at h
  split at h
  · cases h
  obtain ⟨⟨r, x⟩, _, h⟩ := bind_eq_ok.mp h
  dsimp only at h
  split at h
  · cases h
  obtain ⟨hid, hlt⟩ := bcdDecodeHex4 x.var.header.idBcd
  rw [hid, ok_bind] at h
  obtain ⟨m0, _, h⟩ := bind_eq_ok.mp h
  obtain ⟨m1, _, h⟩ := bind_eq_ok.mp h
  have h := Option.some.inj (Except.ok.inj h)
  subst h
  have hl := hexDigits_8 _ hlt
  have h2 : ∀ b : Byte, (fmtHex2 b).length = 2 := forall_byte (by decide +kernel)
  constructor
  · simp only [List.mem_append, not_or, fmtHex2_nonul, not_false_eq_true, and_true]
    unfold padZero
    rw [List.mem_append, not_or]
    exact ⟨by simp, by simpa using hexDigits_nonul _⟩
  · simp only [List.length_append, h2, padZero, List.length_replicate]
    simp only [Int.toNat_natCast]
    omega

theorem sAddress_none (f : Frame) (ha : getSecondaryAddress f = .ok none) (s : Statics) : sAddress f s = .ok (.null, s) := by
  unfold sAddress
  rw [ha, ok_bind]

theorem sAddress_some (f : Frame) (t : List Byte) (ha : getSecondaryAddress f = .ok (some t)) (s : Statics) : sAddress f s = sPlain .address t s := by
  unfold sAddress
  rw [ha, ok_bind]
  rfl

/-- What every call does. -/
theorem call_tells (c : TextCall) (hc : c.Proper) : ∃ t, c.text = .ok t ∧ ∀ s, Sized s →
    match t with
    | some t => Tells (c.run s) s (TextKind.writes c.kind) (TextKind.home c.kind) t
    | none => c.run s = .ok (.null, s) := by
  cases c with
  | manufacturer b1 b2 =>
    obtain ⟨t, h1, h2, h3⟩ : ∃ t, decodeManufacturer b1 b2 = .ok t ∧ t.length = 3 ∧ (0 : Byte) ∉ t := by
      refine ⟨_, decodeManufacturer_eq b1 b2, rfl, ?_⟩
      have key : ∀ n : Nat, (0 : Byte) ≠ UInt8.ofNat (n % 32 + 64) := by
        intro n h
        have : (UInt8.ofNat (n % 32 + 64)).toNat = 0 := by rw [← h]; rfl
        rw [UInt8.toNat_ofNat'] at this
        omega
      intro h
      simp only [List.mem_cons, List.not_mem_nil, or_false] at h
      rcases h with h | h | h <;> exact key _ h
    exact ⟨some t, (by show (decodeManufacturer b1 b2 >>= _) = _; rw [h1, ok_bind]), fun s hs => sManufacturer_tells b1 b2 t h1 h2 h3 s hs⟩
  | product h =>
    obtain ⟨t, h1, h2⟩ := productName_ok h
    obtain ⟨t', h1', _, h3⟩ := productName_plain h
    have : t' = t := Except.ok.inj (h1'.symm.trans h1)
    subst this
    exact ⟨some t', (by show (productName h >>= _) = _; rw [h1, ok_bind]), fun s hs => sProduct_tells h t' h1 h2 h3 s hs⟩
  | fixedMedium x =>
    exact ⟨_, rfl, fun s hs => sPlain_tells .fixedMedium _ (caseOf_nonul _ _ (by decide +kernel) (by decide) _) s hs⟩
  | fixedUnit u =>
    exact ⟨_, rfl, fun s hs => sPlain_tells .fixedUnit _ (caseOf_nonul _ _ (by decide +kernel) (by decide) _) s hs⟩
  | medium m => exact ⟨_, rfl, fun s hs => sPlain_tells .medium _ (medium_nonul' m) s hs⟩
  | unitPrefix e =>
    refine ⟨_, rfl, fun s hs => ?_⟩
    have hl : (Mbus.unitPrefix e).length < 256 := by
      have := fmtInt_length e (by obtain ⟨h1, h2⟩ := hc; simp only [isInt32, Bool.and_eq_true, decide_eq_true_eq]; omega)
      unfold Mbus.unitPrefix
      repeat' split
      all_goals first | decide | (simp only [List.length_append]; simp only [List.length_cons, List.length_nil]; omega)
    have h := sPrefix_tells e s hs
    rwa [snp_eq hl] at h
  | vif v => exact ⟨_, rfl, fun s hs => sVif_tells v s hs⟩
  | error e =>
    refine ⟨_, rfl, fun s hs => sPlain_tells .error _ ?_ s hs⟩
    have hu : (0 : Byte) ∉ cs! "Unknown error (0x" ++ fmtHexInt e ++ cs! ")" := by
      simp only [List.mem_append, not_or]
      exact ⟨⟨by decide, hexInt_nonul e⟩, by decide⟩
    unfold errorText
    split
    · exact hu
    · exact caseOf_nonul _ _ (by decide +kernel) hu _
  | vib r =>
    obtain ⟨⟨c, hc'⟩, _⟩ := Delivered.unit hc
    obtain ⟨t, ht⟩ := vibUnitText_total r c hc'
    have h := C64_vib r t ht
    exact ⟨some t, (by show (vibUnitLookup r >>= _) = _; rw [h, ok_bind]), fun s hs => sVib_tells r t h s hs⟩
  | decode r =>
    obtain ⟨h1, h2, _⟩ := Delivered.bounds hc
    exact ⟨_, rfl, fun s hs => sDecode_tells r h1 h2 s hs⟩
  | unit r =>
    obtain ⟨u, hu, _⟩ := Delivered.unit_ok hc
    exact ⟨some u, (by show (recordUnit r >>= _) = _; rw [hu, ok_bind]), fun s hs => sUnit_tells r u hu s hs⟩
  | value r =>
    obtain ⟨h1, h2, _⟩ := Delivered.bounds hc
    refine ⟨some (upToNul (shown r)), ?_, fun s hs => sValue_tells r h1 h2 s hs⟩
    show (recordValue (List.replicate 768 0) r >>= _) = _
    rw [recordValue_shown _ r List.length_replicate h1 h2, ok_bind]
  | function r => exact ⟨_, rfl, fun s hs => sPlain_tells .function _ (function_nonul r) s hs⟩
  | fixedFunction st =>
    refine ⟨_, rfl, fun s hs => sPlain_tells .fixedFunction _ ?_ s hs⟩
    unfold fixedFunctionText
    split <;> decide
  | headerXml e h =>
    obtain ⟨p, _, hx, _⟩ := headerXml_runs (fun _ => 0) h
    exact ⟨some _, (by show (Mbus.headerXml (fun _ => 0) h >>= _) = _; rw [hx, ok_bind]), fun s hs => sHeaderXml_tells e hc h _ _ hx s hs⟩
  | recordXml e r stamp cnt frame =>
    obtain ⟨h1, h2, h3, h4, h5, h6, h7, h8⟩ := hc
    obtain ⟨u, hu⟩ := h2.printable h3
    obtain ⟨id, rfl⟩ := Int.eq_ofNat_of_zero_le h5
    obtain ⟨fr, hfr, hf⟩ : ∃ fr : Option Nat, frame = frameArg fr ∧ ∀ k, fr = some k → k < 2 ^ 31 := by
      by_cases hz : frame = -1
      · exact ⟨none, hz, by simp⟩
      · refine ⟨some frame.toNat, ?_, ?_⟩
        · show frame = (frame.toNat : Int)
          omega
        · intro k hk
          injection hk with hk
          omega
    subst hfr
    obtain ⟨ue, ve, _, _, hx⟩ := recordXml_runs (fun _ => 0) r u hu stamp h4 id (by omega) fr hf
    exact ⟨some _, (by show (Mbus.recordXml (fun _ => 0) r stamp id (frameArg fr) >>= _) = _; rw [hx, ok_bind]),
      fun s hs => sRecordXml_tells e h1 r u hu stamp h4 id (by omega) fr hf _ _ hx s hs⟩
  | address f =>
    obtain ⟨a, ha⟩ := hc
    refine ⟨a, ha, fun s hs => ?_⟩
    cases a with
    | none => exact sAddress_none f ha s
    | some t =>
      obtain ⟨k1, k2⟩ := secondary_text f t ha
      have h := sPlain_tells .address t k1 s hs
      have e : snp SBuf.address.cap t = t := snp_eq (by exact k2)
      rw [e, ← sAddress_some f t ha s] at h
      exact h

/-- C112: whatever the static memory holds from earlier calls, every call on proper arguments succeeds without undefined behaviour (in particular no `snprintf` reads the buffer it writes)
and the pointer it returns shows a text that depends on its arguments alone. -/
theorem C112_stateless (c : TextCall) (hc : c.Proper) : ∃ t, c.text = .ok t ∧ ∀ s, Sized s → ∃ p s', c.run s = .ok (p, s') ∧ Sized s' ∧
    match t with
    | some t => s'.read p = .ok t
    | none => p = .null := by
  obtain ⟨t, h1, h2⟩ := call_tells c hc
  refine ⟨t, h1, fun s hs => ?_⟩
  have h := h2 s hs
  cases t with
  | none => exact ⟨_, _, h, hs, rfl⟩
  | some t =>
    obtain ⟨p, s', k1, k2, _, k4, _⟩ := h
    exact ⟨p, s', k1, k2, k4⟩

/-- C112: a returned text stays as it is over every history of calls none of which is listed for its function in `invalidatedBy`. -/
theorem C112_lifetime (c : TextCall) (hc : c.Proper) (s : Statics) (hs : Sized s) (p : Ptr) (s1 : Statics) (h : c.run s = .ok (p, s1)) (ds : List TextCall)
    (hd : ∀ d ∈ ds, d.Proper ∧ d.kind ∉ invalidatedBy c.kind) : ∃ s2, runTexts ds s1 = .ok s2 ∧ s2.read p = s1.read p := by
  obtain ⟨t, _, h2⟩ := call_tells c hc
  have h3 := h2 s hs
  have hz : Sized s1 ∧ ∀ b, p = .buf b → b ∈ TextKind.home c.kind := by
    cases t with
    | none =>
      have e := Except.ok.inj (h.symm.trans h3)
      injection e with e1 e2
      subst e1 e2
      exact ⟨hs, by simp⟩
    | some t =>
      obtain ⟨p', s', k1, k2, _, _, k5⟩ := h3
      have e := Except.ok.inj (h.symm.trans k1)
      injection e with e1 e2
      subst e1 e2
      exact ⟨k2, k5⟩
  obtain ⟨hz, hp⟩ := hz
  clear h2 h3 h
  have key : ∀ s1, Sized s1 → ∃ s2, runTexts ds s1 = .ok s2 ∧ ∀ b ∈ TextKind.home c.kind, s2 b = s1 b := by
    induction ds with
    | nil => exact fun s1 _ => ⟨s1, rfl, fun _ _ => rfl⟩
    | cons d ds ih =>
      intro s1 hz
      obtain ⟨d1, d2⟩ := hd d (List.mem_cons_self ..)
      obtain ⟨t, _, h2⟩ := call_tells d d1
      have h3 := h2 s1 hz
      obtain ⟨p', s', k1, k2, k3⟩ : ∃ p' s', d.run s1 = .ok (p', s') ∧ Sized s' ∧ ∀ b, b ∉ TextKind.writes d.kind → s' b = s1 b := by
        cases t with
        | none => exact ⟨_, _, h3, hz, fun _ _ => rfl⟩
        | some t =>
          obtain ⟨p', s', k1, k2, k3, _⟩ := h3
          exact ⟨p', s', k1, k2, k3⟩
      obtain ⟨s2, q1, q2⟩ := ih (fun d hd' => hd d (List.mem_cons_of_mem _ hd')) s' k2
      refine ⟨s2, ?_, fun b hb => (q2 b hb).trans (k3 b (table_sound _ _ d2 b hb))⟩
      unfold runTexts
      rw [k1, ok_bind]
      exact q1
  obtain ⟨s2, q1, q2⟩ := key s1 hz
  refine ⟨s2, q1, ?_⟩
  cases p with
  | const t => rfl
  | null => rfl
  | buf b =>
    show cstr _ = cstr _
    rw [q2 b (hp b rfl)]

/-- The text of the first call is gone after the second. -/
def overwrites (c d : TextCall) : Bool :=
  match c.run Statics.zero with
  | .ok (p, s1) =>
    match d.run s1 with
    | .ok (_, s2) =>
      match s1.read p, s2.read p with
      | .ok t, .ok u => decide (t ≠ u)
      | _, _ => false
    | _ => false
  | _ => false

/-- Two calls for every function (the XML functions and the address aside). -/
def sampleCall : TextKind → Bool → TextCall
  | .manufacturer, b => if b then .manufacturer 0x77 0x04 else .manufacturer 0x42 0x04
  | .product, b => if b then .product { VarHeader.zero with manufacturer := ⟨[0x77, 0x04], rfl⟩, version := 0x0A, medium := 4 } else .product VarHeader.zero
  | .fixedMedium, b => .fixedMedium { FixedData.zero with cnt1Type := if b then 0x40 else 0x80 }
  | .fixedUnit, b => .fixedUnit (if b then 2 else 7)
  | .medium, b => .medium (if b then 4 else 7)
  | .unitPrefix, b => .unitPrefix (if b then -3 else 6)
  | .vif, b => .vif (if b then 0x13 else 0x6C)
  | .error, b => .error (if b then 1 else -1)
  | .vib, b => .vib (sampleRec (if b then 2 else 0))
  | .decode, b => .decode (sampleRec (if b then 2 else 0))
  | .unit, b => .unit (sampleRec (if b then 2 else 0))
  | .value, b => .value (sampleRec (if b then 2 else 0))
  | .function, b => .function { Record.new with dif := if b then 0x14 else 0x04 }
  | .fixedFunction, b => .fixedFunction (if b then 0x40 else 0)
  | .headerXml, _ => .headerXml (List.replicate 768 0) VarHeader.zero
  | .recordXml, _ => .headerXml (List.replicate 768 0) VarHeader.zero
  | .address, _ => .address Frame.zero

/-- C112: the list cannot be shortened.  For every function and every listed function (the XML functions and the address aside) there are calls where the second one overwrites the
text of the first: for example the units of two records, or the label of a VIF after that of a VIB. -/
theorem C112_needed : ∀ k d : TextKind, k ∉ [.headerXml, .recordXml, .address] → d ∉ [.headerXml, .recordXml, .address] → d ∈ invalidatedBy k →
    ∃ c e : TextCall, c.kind = k ∧ e.kind = d ∧ c.Proper ∧ e.Proper ∧ overwrites c e = true := by
  have d0 : Delivered (sampleRec 0) := sampleRec_delivered 0 (by decide)
  have d2 : Delivered (sampleRec 2) := sampleRec_delivered 2 (by decide)
  have ok : ∀ k b, k ∉ [TextKind.headerXml, .recordXml, .address] → (sampleCall k b).kind = k ∧ (sampleCall k b).Proper := by
    intro k b hk
    cases k <;> cases b <;> first
      | exact absurd (by decide) hk
      | exact ⟨rfl, trivial⟩
      | exact ⟨rfl, d0⟩
      | exact ⟨rfl, d2⟩
      | exact ⟨rfl, (by decide : (-2 ^ 31 : Int) ≤ _ ∧ _ < (2 ^ 31 : Int))⟩
  intro k d hk hd hm
  refine ⟨sampleCall k false, sampleCall d true, (ok k _ hk).1, (ok d _ hd).1, (ok k _ hk).2, (ok d _ hd).2, ?_⟩
  clear ok d0 d2
  cases k <;> cases d <;> first
    | exact absurd hm (by decide)
    | exact absurd (by decide) hk
    | exact absurd (by decide) hd
    | decide +kernel

/-- Program start meets the hypotheses. -/
example : Sized Statics.zero := fun b => List.length_replicate

/-! Direct instances of the theorems above: the unit of a record, and then a manufacturer, two labels of error codes and of media. -/

example := C112_stateless (.unit volumeItem.1) (volume_reads.delivered _ (by simp))
example (s s1 : Statics) (hs : Sized s) (p : Ptr) (h : (TextCall.unit volumeItem.1).run s = .ok (p, s1)) :=
  C112_lifetime (.unit volumeItem.1) (volume_reads.delivered _ (by simp)) s hs p s1 h [.manufacturer 0x77 0x04, .medium 7, .manufacturer 0x24 0x40]
    (by intro d hd; simp only [List.mem_cons, List.not_mem_nil, or_false] at hd; rcases hd with rfl | rfl | rfl <;> exact ⟨trivial, by decide⟩)

end Mbus
