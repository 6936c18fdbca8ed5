import Verif.Lemmas.ToolScan
import Verif.Props.Scan
import Verif.Props.ToolRead
/-
Property theorem C94: the tools that scan for secondary addresses.
-/
namespace Mbus
open Spec

/-! ### C94 -/

theorem printStep_quiet (l : List Act) (h : NoProgress l) : ∀ q, l.foldl printStep q = (q.1, q.2 ++ (foundOf l).map fun x => .device x.1 q.1) := by
  induction l with
  | nil => intro q; simp [foundOf]
  | cons a l ih =>
    intro q
    have ih := ih (fun x hx => h x (by simp [hx]))
    rw [List.foldl_cons, ih]
    cases a with
    | progress m => exact absurd rfl (h _ List.mem_cons_self m)
    | found a f => simp [printStep, foundOf]
    | _ => simp [printStep, foundOf]

theorem printed_logOf (es : List Visit) (h : ∀ e ∈ es, NoProgress e.2) : ∀ q, ((logOf es).foldl printStep q).2 = q.2 ++ deviceLines es := by
  induction es with
  | nil => intro q; simp [logOf, deviceLines]
  | cons e es ih =>
    intro q
    have ih := ih (fun x hx => h x (by simp [hx]))
    have e1 : logOf (e :: es) = .progress e.1 :: (e.2 ++ logOf es) := by simp [logOf]
    rw [e1, List.foldl_cons, List.foldl_append, printStep_quiet e.2 (h e (by simp)), ih]
    simp [printStep, deviceLines]

/-- the log of a scan consists of its probes -/
theorem scan_logOf {σ : Type} (o : Ops σ) (st : Settings) (s : σ) (m : List Byte) (hl : m.length = 16) (r : Int) (s' : σ) (log : List Act)
    (h : scanRange o.logged st (s, []) (0 : Nat) m = .ok (r, s', log)) : log = logOf (visits log) ∧ ∀ v ∈ visits log, NoProgress v.2 := by
  unfold scanRange at h
  rw [if_neg (by omega), if_neg (by omega), Int.toNat_natCast] at h
  obtain ⟨es, h1, h2⟩ := scanAt_log o st (16 - 0) (by omega) m hl s [] r (s', log) h
  simp only [List.nil_append] at h1
  have hv := visits_logOf es (scanRun_quiet _ _ _ h2)
  rw [← h1] at hv
  rw [hv]
  exact ⟨h1, scanRun_quiet _ _ _ h2⟩

theorem probing_frames {m : List Byte} {n : Nat} {r : Int} {a : Option (List Byte)} {l : List Act} (h : Probing m n r a l) :
    (∀ f c, Act.sent f c ∈ l → ScanFrame f) ∧ (foundOf l).length ≤ 1 ∧
    ∀ x g, (x, g) ∈ foundOf l → (∃ c, Act.received c g ∈ l) ∧ ∃ t, getSecondaryAddress g = .ok (some t) ∧ x = t.take 16 := by
  have hsel : ∀ {r l}, Selection m r l → (∀ f c, Act.sent f c ∈ l → ScanFrame f) ∧ foundOf l = [] := by
    intro r l h
    refine ⟨?_, by cases h <;> rfl⟩
    intro f c hm
    cases h <;> simp at hm <;> obtain ⟨rfl, rfl⟩ := hm <;> exact .inr (.inr (.inl ⟨m, by assumption, by assumption⟩))
  have hfa : ∀ l l' : List Act, foundOf (l ++ l') = foundOf l ++ foundOf l' := by intro l l'; simp [foundOf]
  have happ : ∀ {l l' : List Act}, (∀ f c, Act.sent f c ∈ l → ScanFrame f) → (∀ f c, Act.sent f c ∈ l' → ScanFrame f) →
      ∀ f c, Act.sent f c ∈ l ++ l' → ScanFrame f := by
    intro l l' h1 h2 f c hm
    rcases List.mem_append.mp hm with hm | hm
    · exact h1 f c hm
    · exact h2 f c hm
  induction h with
  | exhausted => exact ⟨(fun f c h => by cases h), by decide, (fun x g h => by cases h)⟩
  | decided n r l _ hs =>
    obtain ⟨h1, h2⟩ := hsel hs
    rw [h2]
    exact ⟨h1, by decide, (fun x g h => by cases h)⟩
  | again n r a l l' hs _ ih =>
    obtain ⟨h1, h2⟩ := hsel hs
    obtain ⟨i1, i2, i3⟩ := ih
    rw [hfa, h2, List.nil_append]
    refine ⟨happ h1 i1, i2, fun x g hx => ?_⟩
    obtain ⟨⟨c, hc⟩, ht⟩ := i3 x g hx
    exact ⟨⟨c, List.mem_append_right _ hc⟩, ht⟩
  | selected n r a l l' hs hi =>
    obtain ⟨h1, h2⟩ := hsel hs
    rw [hfa, h2, List.nil_append]
    have hreq : ∀ f c, Act.sent f c ∈ l' → ScanFrame f := by
      intro f c hm
      cases hi <;> simp at hm <;> obtain ⟨rfl, rfl⟩ := hm <;> exact .inr (.inr (.inr (by assumption)))
    refine ⟨happ h1 hreq, ?_⟩
    cases hi with
    | single f c rc g t k1 k2 k3 k4 k5 k6 =>
      refine ⟨by simp [foundOf], fun x g' hx => ?_⟩
      have : (x, g') = (t.take 16, g) := by simpa [foundOf] using hx
      cases this
      exact ⟨⟨rc, by simp⟩, t, k6, rfl⟩
    | _ => exact ⟨by simp [foundOf], (fun x g hx => by simp [foundOf] at hx)⟩

/-- observed and printing -/
theorem printing_logged {σ : Type} (o : Ops σ) (pre : List Act) : SimulatesAll o.logged o.logged.printing fun q => ((q.1, pre ++ q.2), printed q.2) := by
  refine ⟨⟨?_, ?_, ?_⟩, ?_, ?_⟩
  · rintro ⟨s, l⟩ f
    show (o.logged.send (s, pre ++ l) f >>= _) = _
    rw [logged_send_eq, logged_send_eq]
    cases o.send s f with
    | error e => rfl
    | ok q => simp [Except.map, printed, printStep, ok_bind]
  · rintro ⟨s, l⟩ f
    show (o.logged.recv (s, pre ++ l) f >>= _) = _
    rw [logged_recv_eq, logged_recv_eq]
    cases o.recv s f with
    | error e => rfl
    | ok q => simp [Except.map, printed, printStep, ok_bind]
  · rintro ⟨s, l⟩
    show (o.logged.purge (s, pre ++ l) >>= _) = _
    rw [logged_purge_eq, logged_purge_eq]
    cases o.purge s with
    | error e => rfl
    | ok q => simp [Except.map, printed, printStep, ok_bind]
  · rintro ⟨s, l⟩ m
    simp [Ops.printing, Ops.logged, printed, printStep]
  · rintro ⟨s, l⟩ a f
    simp [Ops.printing, Ops.logged, printed, printStep]

theorem initAll_log {σ : Type} (o : Ops σ) (s : σ) (log : List Act) (r : Bool) (s' : σ × List Act) (h : initSlaves o.logged (s, log) 0xFF = .ok (r, s')) :
    ∃ l, s'.2 = log ++ l ∧ ∀ f c, Act.sent f c ∈ l → Carries f (.short 0x40 0xFD) ∨ Carries f (.short 0x40 0xFF) := by
  unfold initSlaves at h
  rw [bind_eq_ok] at h
  obtain ⟨⟨r1, s1, log1⟩, h1, h⟩ := h
  obtain ⟨l1, e1, p1⟩ := pingP_log o s log 0xFD (by decide) r1 _ h1
  simp only at e1 h
  subst e1
  by_cases hr : r1 = -1
  · rw [if_pos hr] at h; cases h; exact ⟨l1, rfl, fun f c hm => .inl (p1 f c hm)⟩
  rw [if_neg hr, bind_eq_ok] at h
  obtain ⟨⟨r2, s2, log2⟩, h2, h⟩ := h
  obtain ⟨l2, e2, p2⟩ := pingP_log o s1 _ 0xFF (by decide) r2 _ h2
  simp only at e2 h
  subst e2
  refine ⟨l1 ++ l2, ?_, ?_⟩
  · split at h <;> cases h <;> simp
  · intro f c hm
    rcases List.mem_append.mp hm with hm | hm
    · exact .inl (p1 f c hm)
    · exact .inr (p2 f c hm)

/-- C94: whatever the handle does, the tool sends nothing but resets, selections and requests; for a mask that is not 16 hexadecimal
digits it sends nothing and fails; otherwise, unless a reset cannot be sent, it prints a line for each probe of the scan (C49)
that found a device.  Each line names a mask that refines the given one and the address in a telegram that was received. -/
theorem C94_scan {σ : Type} (o : Ops σ) (st : Settings) (s : σ) (mask : List Byte) (e : Exit (σ × List Act))
    (h : scanSecondaryTool o.logged st (s, []) mask = .ok e) :
    (∀ f c, Act.sent f c ∈ e.state.2 → ScanFrame f) ∧
    ((¬ AddressMask mask ∧ e = ⟨1, [], (s, [])⟩) ∨ (AddressMask mask ∧ e.code = 1 ∧ e.out = []) ∨
     (AddressMask mask ∧ e.code = 0 ∧ ∃ s1 resets log r, e.state.2 = resets ++ log ∧ scanRange o.logged st (s1, []) 0 mask = .ok (r, e.state.1, log) ∧
        e.out = deviceLines (visits log) ∧ e.out.length ≤ (visits log).length ∧
        ∀ l ∈ e.out, ∃ a x g t, l = .device a x ∧ Refines 0 mask x ∧ (∃ c, Act.received c g ∈ log) ∧ getSecondaryAddress g = .ok (some t) ∧ a = t.take 16)) := by
  unfold scanSecondaryTool at h
  rcases Classical.em (AddressMask mask) with hm | hm
  case inr =>
    rw [if_pos (by rw [← Bool.not_eq_true, isSecondary_iff]; exact hm)] at h
    cases h
    exact ⟨(fun f c h => by cases h), .inl ⟨hm, rfl⟩⟩
  rw [if_neg (by rw [(isSecondary_iff mask).mpr hm]; decide), bind_eq_ok] at h
  obtain ⟨⟨ok, s1, log1⟩, h1, h⟩ := h
  obtain ⟨l1, e1, r1⟩ := initAll_log o s [] ok _ h1
  simp only [List.nil_append] at e1 h
  subst e1
  have n1 : ∀ f c, Act.sent f c ∈ log1 → ScanFrame f := fun f c hmem => (r1 f c hmem).elim .inl fun h => .inr (.inl h)
  by_cases hok : ok = false
  · rw [if_pos hok] at h
    cases h
    exact ⟨n1, .inr (.inl ⟨hm, rfl, rfl⟩)⟩
  rw [if_neg hok] at h
  have hsim := scan_sim (printing_logged o log1) st (s1, []) 0 mask
  simp only [List.append_nil] at hsim
  rw [show ((s1, log1), ([] : List Byte), ([] : List Line)) = ((s1, log1), printed []) from rfl, hsim] at h
  cases hq : scanRange o.logged st (s1, []) 0 mask with
  | error e => rw [hq] at h; cases h
  | ok q =>
    obtain ⟨r, s2, log⟩ := q
    rw [hq] at h
    cases h
    have hq0 : scanRange o.logged st (s1, []) (0 : Nat) mask = .ok (r, s2, log) := hq
    obtain ⟨hlog, hnp⟩ := scan_logOf o st s1 mask hm.1 r s2 log hq0
    have hprobes := C49_probes o st s1 0 mask hm.1 (by decide) r s2 log hq0
    have hrefines := C49_refines o st s1 0 mask hm.1 (by decide) r s2 log hq0
    have hout : (printed log).2 = deviceLines (visits log) := by
      unfold printed
      rw [hlog]
      have := printed_logOf (visits log) hnp ([], [])
      rw [this, List.nil_append, ← hlog]
    have hsub : ∀ v ∈ visits log, ∀ a ∈ v.2, a ∈ log := by
      intro v hv a ha
      rw [hlog]
      exact List.mem_flatMap.mpr ⟨v, hv, List.mem_cons_of_mem _ ha⟩
    have n2 : ∀ f c, Act.sent f c ∈ log → ScanFrame f := by
      intro f c hmem
      rw [hlog] at hmem
      obtain ⟨v, hv, hmem⟩ := List.mem_flatMap.mp hmem
      obtain ⟨r, a, hp⟩ := hprobes v hv
      rcases List.mem_cons.mp hmem with hmem | hmem
      · cases hmem
      · exact (probing_frames hp).1 f c hmem
    refine ⟨?_, .inr (.inr ⟨hm, rfl, s1, log1, log, r, rfl, hq, hout, ?_, ?_⟩)⟩
    · intro f c hmem
      rcases List.mem_append.mp hmem with hmem | hmem
      · exact n1 f c hmem
      · exact n2 f c hmem
    · show (printed log).2.length ≤ _
      rw [hout]
      generalize visits log = vs at hprobes
      induction vs with
      | nil => simp [deviceLines]
      | cons v vs ih =>
        obtain ⟨r, a, hp⟩ := hprobes v (by simp)
        have := (probing_frames hp).2.1
        have := ih (fun x hx => hprobes x (by simp [hx]))
        simp only [deviceLines, List.flatMap_cons, List.length_append, List.length_map, List.length_cons] at this ⊢
        omega
    · intro l hl
      have hl : l ∈ (printed log).2 := hl
      rw [hout] at hl
      obtain ⟨v, hv, hl⟩ := List.mem_flatMap.mp hl
      obtain ⟨⟨x, g⟩, hx, rfl⟩ := List.mem_map.mp hl
      obtain ⟨r, a, hp⟩ := hprobes v hv
      obtain ⟨⟨c, hc⟩, t, ht, hxt⟩ := (probing_frames hp).2.2 x g hx
      exact ⟨x, v.1, g, t, rfl, hrefines v hv, ⟨c, hsub v hv _ hc⟩, ht, hxt⟩


theorem initAll_wire (k : Kind) (env : Env) (ho : IsOpen k env) (hw : Writable env) (purge : Int) (before after : List (List Byte))
    (hr : ResettableAll env before after) : initSlaves ((busLink k env).ops purge) ⟨[], before⟩ 0xFF = .ok (true, ⟨[], after⟩) := by
  obtain ⟨rfl, ⟨cs1, hc1, h1⟩, ⟨cs2, hc2, h2⟩⟩ := hr
  unfold initSlaves
  have e1 := bus_pingPurge k env ho hw purge before 0xFD (by decide) cs1 hc1 h1
  have e2 := bus_pingPurge k env ho hw purge (before ++ [pingWire 0xFD]) 0xFF (by decide) cs2 hc2 h2
  rw [show (0xFD : Int) = ((0xFD : Nat) : Int) from rfl, e1, ok_bind]
  simp only
  rw [if_neg (by decide)]
  erw [e2]
  rw [ok_bind]
  simp only
  rw [if_neg (by decide)]
  rfl

/-- the devices in the log of a scan are those of its probes -/
theorem foundOf_logOf (es : List Visit) : foundOf (logOf es) = es.flatMap fun v => foundOf v.2 := by
  induction es with
  | nil => rfl
  | cons e es ih =>
    have e1 : logOf (e :: es) = [.progress e.1] ++ (e.2 ++ logOf es) := by simp [logOf]
    rw [e1]
    simp only [foundOf, List.filterMap_append, List.flatMap_cons] at ih ⊢
    rw [ih]
    simp

theorem pointwise_split {α β : Type} {R : α → β → Prop} : ∀ {a a' : List α} {b : List β}, Pointwise R (a ++ a') b →
    ∃ b1 b2, b = b1 ++ b2 ∧ Pointwise R a b1 ∧ Pointwise R a' b2 := by
  intro a
  induction a with
  | nil => intro a' b h; exact ⟨[], b, rfl, .nil, h⟩
  | cons x a ih =>
    intro a' b h
    cases h with
    | cons hx h =>
      obtain ⟨b1, b2, rfl, h1, h2⟩ := ih h
      exact ⟨_ :: b1, b2, rfl, .cons hx h1, h2⟩

theorem lines_pointwise {R : List Byte × Frame → Device → Prop} {S : Line → Device → Prop} :
    ∀ (vs : List Visit) (es : List Device), Pointwise R (vs.flatMap fun v => foundOf v.2) es →
    (∀ v ∈ vs, ∀ x d, R x d → S (.device x.1 v.1) d) → Pointwise S (deviceLines vs) es := by
  have hmap : ∀ (m : List Byte) (xs : List (List Byte × Frame)) (ds ds' : List Device) (ls : List Line),
      Pointwise R xs ds → Pointwise S ls ds' → (∀ x d, R x d → S (.device x.1 m) d) → Pointwise S (xs.map (fun x => Line.device x.1 m) ++ ls) (ds ++ ds') := by
    intro m xs ds ds' ls h hl hs
    induction h with
    | nil => exact hl
    | cons hx _ ih => exact .cons (hs _ _ hx) ih
  intro vs
  induction vs with
  | nil => intro es h _; cases h; exact .nil
  | cons v vs ih =>
    intro es h hs
    rw [List.flatMap_cons] at h
    obtain ⟨b1, b2, rfl, h1, h2⟩ := pointwise_split h
    exact hmap _ _ _ _ _ h1 (ih b2 h2 (fun w hw => hs w (by simp [hw]))) (hs v (by simp))

/-- C94: on a bus whose meters have different decimal identification numbers and whose resets are survived, the tool with a mask on
the identification number (with a wildcard) succeeds and prints exactly one line for each meter the mask selects: its address, and
a mask that refines the given one. -/
theorem C94_wire_partial (k : Kind) (env : Env) (purge : Int) (st : Settings) (devs : List Device) (h : Scannable k env purge st devs)
    (m : List Byte) (hm : IdMask m) (hwild : ∃ i, i < 8 ∧ IsWild (m.getD i 0)) (before after : List (List Byte)) (hr : ResettableAll env before after) :
    ∃ sent' ls es, scanSecondaryTool ((busLink k env).ops purge) st ⟨[], before⟩ m = .ok ⟨0, ls, ⟨[], sent'⟩⟩ ∧
      es.Perm (devs.filter fun d => selects (addressBytes m) d.address) ∧
      Pointwise (fun l d => ∃ x, l = .device (addressText d.address) x ∧ Refines 0 m x) ls es := by
  obtain ⟨i, hi, hw⟩ := hwild
  obtain ⟨sent', log, es, h1, h2, h3⟩ := C74_scan_mask_partial k env purge st devs h m hm 0 (by intro i hi; omega) ⟨i, by omega, hi, hw⟩ after
  have hq0 : scanRange ((busLink k env).ops purge).logged st (⟨[], after⟩, []) (0 : Nat) m = .ok (0, ⟨[], sent'⟩, log) := h1
  obtain ⟨hlog, hnp⟩ := scan_logOf _ st _ m hm.length 0 _ log hq0
  have hrefines := C49_refines _ st _ 0 m hm.length (by decide) 0 _ log hq0
  have hout : (printed log).2 = deviceLines (visits log) := by
    unfold printed
    rw [hlog]
    have := printed_logOf (visits log) hnp ([], [])
    rw [this, List.nil_append, ← hlog]
  refine ⟨sent', (printed log).2, es, ?_, h3, ?_⟩
  · unfold scanSecondaryTool
    rw [if_neg (by rw [(isSecondary_iff m).mpr (idMask_address _ hm)]; decide), initAll_wire k env h.opened h.writable purge before after hr, ok_bind]
    simp only
    rw [if_neg (by decide)]
    have hsim := scan_sim (printing_simulates ((busLink k env).ops purge)) st (⟨[], after⟩, []) 0 m
    rw [show ((⟨[], after⟩ : Bus), ([] : List Byte), ([] : List Line)) = (⟨[], after⟩, printed []) from rfl, hsim]
    erw [hq0]
    rfl
  · rw [hout]
    have hf : foundOf log = (visits log).flatMap fun v => foundOf v.2 := by
      rw [← foundOf_logOf, ← hlog]
    rw [hf] at h2
    exact lines_pointwise _ _ h2 (fun v hv x d hx => ⟨v.1, by rw [hx.1], hrefines v hv⟩)

/-- C94: in particular all meters with the mask of wildcards. -/
theorem C94_all_wire (k : Kind) (env : Env) (purge : Int) (st : Settings) (devs : List Device) (h : Scannable k env purge st devs)
    (before after : List (List Byte)) (hr : ResettableAll env before after) :
    ∃ sent' ls es, scanSecondaryTool ((busLink k env).ops purge) st ⟨[], before⟩ allWild = .ok ⟨0, ls, ⟨[], sent'⟩⟩ ∧
      es.Perm devs ∧ Pointwise (fun l d => ∃ x, l = .device (addressText d.address) x ∧ Refines 0 allWild x) ls es := by
  obtain ⟨sent', ls, es, h1, h2, h3⟩ := C94_wire_partial k env purge st devs h allWild allWild_mask ⟨0, by omega, .inl rfl⟩ before after hr
  rw [List.filter_eq_self.mpr (fun d _ => allWild_selects d)] at h2
  exact ⟨sent', ls, es, h1, h2, h3⟩

/-- two meters, which answer the resets at the same time -/
example (k : Kind) : Scannable k (idealBus twoMeters) PURGE_M2S ⟨3, 1, PURGE_M2S⟩ twoMeters ∧
    ResettableAll (idealBus twoMeters) [] [pingWire 0xFD, pingWire 0xFF] :=
  ⟨twoMeters_scannable k, rfl, ⟨[[0xFF]], (by unfold Chunks; decide), by decide +kernel⟩, ⟨[[0xFF]], (by unfold Chunks; decide), by decide +kernel⟩⟩

/-- not a mask -/
example : scanSecondaryTool ((busLink .serial (idealBus twoMeters)).ops PURGE_M2S).logged ⟨3, 1, PURGE_M2S⟩ (⟨[], []⟩, []) [70, 70] =
    .ok ⟨1, [], (⟨[], []⟩, [])⟩ := rfl

/-! Direct instances of the theorems above. -/

example (k : Kind) (env : Env) (b : Bus) (e : Exit (Bus × List Act))
    (h : scanSecondaryTool ((busLink k env).ops PURGE_M2S).logged ⟨3, 1, PURGE_M2S⟩ (b, []) allWild = .ok e) := C94_scan _ ⟨3, 1, PURGE_M2S⟩ b allWild e h
example (k : Kind) := C94_wire_partial k (idealBus twoMeters) PURGE_M2S ⟨3, 1, PURGE_M2S⟩ twoMeters (twoMeters_scannable k) allWild allWild_mask ⟨7, by decide, by decide⟩ []
  [pingWire 0xFD, pingWire 0xFF] ⟨rfl, ⟨[[0xFF]], (by unfold Chunks; decide), by decide +kernel⟩, ⟨[[0xFF]], (by unfold Chunks; decide), by decide +kernel⟩⟩

end Mbus
