import Verif.Lemmas.XmlMem
/- The XML functions with memory when every allocation is granted. -/
namespace Mbus
open Spec

theorem recordsXmlOwned_same (junk : Nat → Nat → Byte) (fc : Int) {m0 : Mem} (hm : MemOk m0) (all : List Nat) (rs : List Stamped) :
    ∀ (recs : List Nat), (∀ a ∈ recs, a ∈ all) → recs.length = rs.length → ∀ (cnt : Int) (b : XBuf) (p : Nat) (m : Mem), Kept m0 m (p :: all) → Granting m →
    (∀ e, recordsXml junk fc rs cnt b = .error e → recordsXmlOwned junk fc (recs.zip rs) cnt b p m = .error e) ∧
    ∀ b' cnt', recordsXml junk fc rs cnt b = .ok (b', cnt') →
      ∃ p' m', recordsXmlOwned junk fc (recs.zip rs) cnt b p m = .ok (some (b', cnt'), p', m') ∧ Kept m0 m' (p' :: all) ∧ Granting m' := by
  induction rs with
  | nil =>
    intro recs _ hl cnt b p m hk hg
    have : recs = [] := List.eq_nil_of_length_eq_zero hl
    subst this
    refine ⟨fun e h => (by cases h), fun b' cnt' h => ?_⟩
    injection h with h
    injection h with h1 h2
    subst h1; subst h2
    exact ⟨p, m, rfl, hk, hg⟩
  | cons r rs ih =>
    intro recs hall hl cnt b p m hk hg
    obtain ⟨r, stamp⟩ := r
    obtain ⟨a, recs, rfl⟩ : ∃ a rs, recs = a :: rs := by
      cases recs with
      | nil => simp at hl
      | cons a rs => exact ⟨a, rs, rfl⟩
    simp only [List.zip_cons_cons, recordsXmlOwned, recordsXml]
    obtain ⟨s, hs⟩ := hk.load hm (a := a) (List.mem_cons_of_mem _ (hall a (List.mem_cons_self ..)))
    rw [hs, ok_bind]
    rcases growOwned_kept (scratch (junk cnt.toNat) 3) b hm hk with ⟨m1, w1, w2, w3⟩ | ⟨p1, m1, w1, w2, w3⟩
    · exact absurd hg w3
    · rw [w1, ok_bind]
      dsimp only
      cases h1 : recordXml (junk cnt.toNat) r stamp cnt fc with
      | error e => exact ⟨fun e' h => (by cases h; rfl), fun b' cnt' h => (by cases h)⟩
      | ok t =>
        rw [ok_bind, ok_bind]
        cases h2 : (b.grow (scratch (junk cnt.toNat) 3)).put t with
        | error e => exact ⟨fun e' h => (by cases h; rfl), fun b' cnt' h => (by cases h)⟩
        | ok b2 =>
          rw [ok_bind, ok_bind]
          cases h3 : int32 (cnt + 1) with
          | error e => exact ⟨fun e' h => (by cases h; rfl), fun b' cnt' h => (by cases h)⟩
          | ok c2 =>
            rw [ok_bind, ok_bind]
            exact ih recs (fun x hx => hall x (List.mem_cons_of_mem _ hx)) (by simpa using hl) c2 b2 p1 m1 w2 (w3 hg)

theorem printListOwned_same (junk : Nat → Nat → Byte) (fc : Int) {m0 : Mem} (hm : MemOk m0) (stamp : Option (List Byte)) (x : FrameData) (recs : List Nat)
    (hl : recs.length = x.var.records.length) (cnt : Int) (b : XBuf) (p : Nat) (m : Mem) (hk : Kept m0 m (p :: recs)) (hg : Granting m) :
    (∀ e, recordsXml junk fc (x.var.records.map (·, stamp)) cnt b = .error e → printListOwned junk fc stamp x recs cnt b p m = .error e) ∧
    ∀ b' cnt', recordsXml junk fc (x.var.records.map (·, stamp)) cnt b = .ok (b', cnt') →
      ∃ p' m', printListOwned junk fc stamp x recs cnt b p m = .ok (some (b', cnt', p'), m') ∧ Kept m0 m' [p'] ∧ Granting m' ∧ ∀ a ∈ recs, a ∉ m'.live.map (·.1) := by
  obtain ⟨h1, h2⟩ := recordsXmlOwned_same junk fc hm recs (x.var.records.map (·, stamp)) recs (fun _ h => h) (by simpa using hl) cnt b p m hk hg
  unfold printListOwned
  refine ⟨fun e h => by rw [h1 e h]; rfl, fun b' cnt' h => ?_⟩
  obtain ⟨p', m1, r1, r2, r3⟩ := h2 b' cnt' h
  rw [r1, ok_bind]
  dsimp only
  have hk2 : Kept m0 m1 ([p'] ++ recs) := r2
  obtain ⟨m2, f1, f2, f3⟩ := hk2.part hm
  rw [f1, ok_bind]
  refine ⟨p', m2, rfl, f2, granting_of_eq f3 r3, ?_⟩
  intro a ha hin
  obtain ⟨n1, g1, q1⟩ := r2
  obtain ⟨n2, g2, q2⟩ := f2
  rw [g2.live, List.map_append] at hin
  have hnd := q1.nodup_iff.mp g1.nodup
  rcases List.mem_append.mp hin with hin | hin
  · have := q2.mem_iff.mp hin
    rw [List.mem_singleton] at this
    subst this
    rw [List.nodup_cons] at hnd
    exact hnd.1 ha
  · obtain ⟨y, hy, hya⟩ := List.mem_map.mp hin
    obtain ⟨z, hz, hza⟩ := List.mem_map.mp (q1.mem_iff.mpr (List.mem_cons_of_mem _ ha))
    have h1 := g1.old z hz
    have h2 := hm.2 y hy
    omega

/-- A telegram that is not variable data leaves the record list alone. -/
theorem frameDataParse_other (f : Frame) (x : FrameData) (v : VarData) (h : ¬ (f.control &&& MASK_DIR = MASK_DIR_S2M ∧ f.ci = 0x72 ∧ f.dataSize ≠ 0)) :
    (∀ e, frameDataParse f { x with var := v } = .error e → frameDataParse f x = .error e) ∧
    ∀ c w, frameDataParse f { x with var := v } = .ok (c, w) → w.var = v ∧ (c ≠ -1 → w.type ≠ DATA_VARIABLE) ∧ frameDataParse f x = .ok (c, { w with var := x.var }) := by
  by_cases h00 : f.control &&& MASK_DIR = MASK_DIR_S2M ∧ f.ci = 0x70
  · rw [frameDataParse_error f _ h00.1 h00.2, frameDataParse_error f _ h00.1 h00.2]
    refine ⟨fun e h => (by cases h), fun c w h => ?_⟩
    injection h with h
    injection h with h1 h2
    subst h1; subst h2
    exact ⟨rfl, fun _ => (show DATA_ERROR ≠ DATA_VARIABLE by decide), rfl⟩
  unfold frameDataParse
  by_cases hd : f.control &&& MASK_DIR = MASK_DIR_S2M
  · rw [if_pos hd, if_pos hd]
    by_cases h0 : f.ci = 0x70
    · exact absurd ⟨hd, h0⟩ h00
    · rw [if_neg h0, if_neg h0]
      by_cases h3 : f.ci = 0x73
      · rw [if_pos h3, if_pos h3]
        by_cases hz : f.dataSize = 0
        · rw [if_pos hz, if_pos hz]
          refine ⟨fun e h => (by cases h), fun c w h => ?_⟩
          injection h with h
          injection h with h1 h2
          subst h1; subst h2
          exact ⟨rfl, fun h => absurd rfl h, rfl⟩
        · rw [if_neg hz, if_neg hz]
          dsimp only
          cases fixedParse f x.fix with
          | error e => exact ⟨fun e h => (by cases h; rfl), fun c w h => (by cases h)⟩
          | ok q =>
            obtain ⟨r, y⟩ := q
            refine ⟨fun e h => (by cases h), fun c w h => ?_⟩
            rw [ok_bind] at h ⊢
            injection h with h
            injection h with h1 h2
            subst h1; subst h2
            exact ⟨rfl, fun _ => (show DATA_FIXED ≠ DATA_VARIABLE by decide), rfl⟩
      · rw [if_neg h3, if_neg h3]
        have base : (∀ e, (.ok (-1, { x with var := v }) : C (Int × FrameData)) = .error e → (.ok (-1, x) : C (Int × FrameData)) = .error e) ∧
            ∀ c w, (.ok (-1, { x with var := v }) : C (Int × FrameData)) = .ok (c, w) → w.var = v ∧ (c ≠ -1 → w.type ≠ DATA_VARIABLE) ∧ (.ok (-1, x) : C (Int × FrameData)) = .ok (c, { w with var := x.var }) := by
          refine ⟨fun e h => (by cases h), fun c w h => ?_⟩
          injection h with h
          injection h with h1 h2
          subst h1; subst h2
          exact ⟨rfl, fun h => absurd rfl h, rfl⟩
        by_cases h2 : f.ci = 0x72
        · rw [if_pos h2, if_pos h2]
          have hz : f.dataSize = 0 := by
            by_cases hz : f.dataSize = 0
            · exact hz
            · exact absurd ⟨hd, h2, hz⟩ h
          rw [if_pos hz, if_pos hz]
          exact base
        · rw [if_neg h2, if_neg h2]
          exact base
  · rw [if_neg hd, if_neg hd]
    refine ⟨fun e h => (by cases h), fun c w h => ?_⟩
    injection h with h
    injection h with h1 h2
    subst h1; subst h2
    exact ⟨rfl, fun h => absurd rfl h, rfl⟩

/-- A telegram of variable data: the previous content does not matter. -/
theorem frameDataParse_fresh (f : Frame) (x : FrameData) (v : VarData) (h : f.control &&& MASK_DIR = MASK_DIR_S2M ∧ f.ci = 0x72 ∧ f.dataSize ≠ 0) (h12 : 12 ≤ f.dataSize) :
    frameDataParse f { x with var := v } = frameDataParse f x := by
  rw [rsp_dir f _ h, rsp_dir f _ h]
  obtain ⟨_, e1, _, e2⟩ := variableParse_eq f x.var h12
  obtain ⟨_, e3, _, e4⟩ := variableParse_eq f v h12
  rw [e1] at e3
  injection e3 with e3
  subst e3
  dsimp only
  rw [e2, e4]

theorem lookup_key {l : List (Nat × List Byte)} {a : Nat} {s : List Byte} (h : l.lookup a = some s) : a ∈ l.map (·.1) := by
  induction l with
  | nil => cases h
  | cons x l ih =>
    obtain ⟨k, v⟩ := x
    rw [List.lookup_cons] at h
    by_cases hk : a == k
    · rw [List.map_cons]
      exact List.mem_cons.mpr (.inl (beq_iff_eq.mp hk))
    · rw [Bool.eq_false_iff.mpr hk] at h
      exact List.mem_cons_of_mem _ (ih h)

theorem chainXmlOwned_same (junk : Nat → Nat → Byte) {m0 : Mem} (hm : MemOk m0) (ts : List Telegram) : ∀ (x : FrameData) (recs : List Nat) (cnt fc : Int) (b : XBuf) (p : Nat) (m : Mem),
    Kept m0 m [p] → Granting m → recs.length = x.var.records.length → (∀ a ∈ recs, a ∉ m.live.map (·.1)) →
    Agrees m0 (chainXml junk ts { x with var := { x.var with records := [] } } (decide (x.var.records ≠ [])) cnt fc b) (chainXmlOwned junk ts x recs cnt fc b p m) := by
  induction ts with
  | nil =>
    intro x recs cnt fc b p m hk hg hl hd
    unfold chainXml chainXmlOwned
    cases h : b.put (cs! "</MBusData>\n") with
    | error e => exact rfl
    | ok b' => exact ⟨_, _, _, rfl, hk.store hm _, hg, p, rfl, rfl⟩
  | cons tel ts ih =>
    intro x recs cnt fc b p m hk hg hl hdead
    obtain ⟨f, stamp⟩ := tel
    obtain ⟨r1, r2⟩ := frameDataParseOwned_runs f x recs m (hk.ok hm)
    by_cases hv : f.control &&& MASK_DIR = MASK_DIR_S2M ∧ f.ci = 0x72 ∧ f.dataSize ≠ 0
    · by_cases h12 : 12 ≤ f.dataSize
      · have hfr := frameDataParse_fresh f x { x.var with records := [] } hv h12
        unfold chainXml chainXmlOwned
        rw [hfr]
        cases ho : frameDataParseOwned f x recs m with
        | error e => rw [r1 e ho]; exact rfl
        | ok q =>
          obtain ⟨c, w, recs', m1⟩ := q
          obtain ⟨news, g1, hg1, hrecs, hsame⟩ := r2 c w recs' m1 ho
          rcases hrecs with ⟨_, _, hno⟩ | ⟨hperm, _, _, _, hlen⟩
          · exact absurd ⟨hv.1, hv.2.1, h12⟩ hno
          rcases hsame with ⟨_, hng, _⟩ | hsame
          · exact absurd hg hng
          have hk1 : Kept m0 m1 (p :: recs') := (hk.trans ⟨news, g1, hperm.symm⟩).perm (List.perm_append_singleton _ _)
          have htype : w.type = DATA_VARIABLE := by
            rw [rsp_dir f x hv] at hsame
            obtain ⟨q, _, hq⟩ := bind_eq_ok.mp hsame
            injection hq with hq
            injection hq with _ hq
            rw [← hq]
          rw [hsame, ok_bind, ok_bind]
          dsimp only
          by_cases hc : c = -1
          · rw [if_pos hc, if_pos hc]
            obtain ⟨n1, g2, q2⟩ := hk1
            refine ⟨none, m1, n1, rfl, g2, hg1 hg, rfl, ?_⟩
            have := q2.length_eq
            simp at this ⊢
            omega
          · rw [if_neg hc, if_neg hc]
            have e : (decide (x.var.records ≠ []) && decide (w.type ≠ DATA_VARIABLE)) = false := by rw [htype]; simp
            rw [e, if_neg (by decide)]
            obtain ⟨s1, s2⟩ := printListOwned_same junk fc hm stamp w recs' hlen.symm cnt b p m1 hk1 (hg1 hg)
            cases hp : recordsXml junk fc (w.var.records.map (·, stamp)) cnt b with
            | error e => rw [s1 e hp]; exact rfl
            | ok z =>
              obtain ⟨b', cnt'⟩ := z
              obtain ⟨p', m2, t1, t2, t3, t4⟩ := s2 b' cnt' hp
              rw [t1, ok_bind, ok_bind]
              dsimp only
              cases hi : int32 (fc + 1) with
              | error e => exact rfl
              | ok fc' =>
                rw [ok_bind, ok_bind]
                exact ih w recs' cnt' fc' b' p' m2 t2 t3 hlen.symm t4
      · unfold chainXml chainXmlOwned
        have e1 : frameDataParse f { x with var := { x.var with records := [] } } =
            .ok (-1, { x with type := DATA_VARIABLE, var := { x.var with records := [], nrecords := 0, more := 0 } }) := by
          rw [rsp_dir f _ hv, variableParse_short f _ (by omega), ok_bind]
        have e2 : frameDataParseOwned f x recs m = .ok (-1, { x with type := DATA_VARIABLE, var := { x.var with nrecords := 0, more := 0 } }, recs, m) := by
          unfold frameDataParseOwned variableParseOwned
          rw [if_pos hv, if_pos (by omega), ok_bind]
        rw [e1, e2, ok_bind, ok_bind]
        dsimp only
        rw [if_pos rfl, if_pos rfl]
        obtain ⟨n1, g2, q2⟩ := hk
        exact ⟨none, m, n1, rfl, g2, hg, rfl, by have := q2.length_eq; simpa using this⟩
    · have e2 : frameDataParseOwned f x recs m = (frameDataParse f x >>= fun q => .ok (q.1, q.2, recs, m)) := by
        unfold frameDataParseOwned
        rw [if_neg hv]
      obtain ⟨u1, u2⟩ := frameDataParse_other f x { x.var with records := [] } hv
      unfold chainXml chainXmlOwned
      rw [e2]
      cases hp : frameDataParse f { x with var := { x.var with records := [] } } with
      | error e => rw [u1 e hp]; exact rfl
      | ok q =>
        obtain ⟨c, w⟩ := q
        obtain ⟨w1, w2, w3⟩ := u2 c w hp
        rw [w3, ok_bind, ok_bind, ok_bind]
        dsimp only
        by_cases hc : c = -1
        · rw [if_pos hc, if_pos hc]
          obtain ⟨n1, g2, q2⟩ := hk
          refine ⟨none, m, n1, rfl, g2, hg, rfl, ?_⟩
          rw [w1]
          have := q2.length_eq
          simpa using this
        · rw [if_neg hc, if_neg hc]
          have hty := w2 hc
          by_cases hr : x.var.records = []
          · have hrn : recs = [] := List.eq_nil_of_length_eq_zero (by rw [hl, hr]; rfl)
            subst hrn
            have e : (decide (x.var.records ≠ []) && decide (w.type ≠ DATA_VARIABLE)) = false := by simp [hr]
            rw [e, if_neg (by decide), w1]
            obtain ⟨s1, s2⟩ := printListOwned_same junk fc hm stamp { w with var := x.var } [] (by simp [hr]) cnt b p m hk hg
            dsimp only at s1 s2
            have hrr : ({ x.var with records := [] } : VarData).records = x.var.records := by rw [hr]
            rw [hrr]
            cases hp : recordsXml junk fc (x.var.records.map (·, stamp)) cnt b with
            | error e => rw [s1 e hp]; exact rfl
            | ok z =>
              obtain ⟨b', cnt'⟩ := z
              obtain ⟨p', m2, t1, t2, t3, t4⟩ := s2 b' cnt' hp
              rw [t1, ok_bind, ok_bind]
              dsimp only
              cases hi : int32 (fc + 1) with
              | error e => exact rfl
              | ok fc' =>
                rw [ok_bind, ok_bind]
                have := ih { w with var := x.var } [] cnt' fc' b' p' m2 t2 t3 (by simp [hr]) t4
                exact this
          · obtain ⟨r0, rs0, hr0⟩ : ∃ a l, x.var.records = a :: l := List.exists_cons_of_ne_nil hr
            obtain ⟨a0, as0, ha0⟩ : ∃ a l, recs = a :: l := by
              cases recs with
              | nil => rw [hr0] at hl; simp at hl
              | cons a l => exact ⟨a, l, rfl⟩
            have e : (decide (x.var.records ≠ []) && decide (w.type ≠ DATA_VARIABLE)) = true := by simp [hr, hty]
            rw [e, if_pos rfl]
            have hload : m.load a0 = .error .useAfterFree := by
              unfold Mem.load
              cases hlk : m.live.lookup a0 with
              | none => rfl
              | some s =>
                exfalso
                apply hdead a0 (by rw [ha0]; exact List.mem_cons_self ..)
                exact lookup_key hlk
            have : printListOwned junk fc stamp { w with var := x.var } recs cnt b p m = .error .useAfterFree := by
              unfold printListOwned
              dsimp only
              rw [hr0, ha0]
              simp only [List.map_cons, List.zip_cons_cons, recordsXmlOwned]
              rw [hload]
              rfl
            rw [this]
            exact rfl

theorem buffer_on {m0 m : Mem} (hm : MemOk m0) (hk : Kept m0 m []) (text : C (List Byte)) (hg : Granting m) :
    Agrees m0 (text >>= fun c => .ok ⟨some c, false, []⟩) (bufferOwned text m) := by
  unfold bufferOwned
  rcases alloc_cases m [] with ⟨m1, e, g, hg1⟩ | ⟨m1, e, g, hg1⟩
  · rw [e]
    dsimp only
    cases text with
    | error e => exact rfl
    | ok c =>
      have hk' : Kept m0 m1 [m.next] := hk.trans ⟨_, g, .refl _⟩
      exact ⟨_, _, _, rfl, hk'.store hm c, hg1 hg, m.next, rfl, rfl⟩
  · exact absurd hg hg1

theorem frameXmlOwned_same (junk0 : Nat → Byte) (junk : Nat → Nat → Byte) (t : Telegram) (ts : List Telegram) {m : Mem} (hm : MemOk m) (hg : Granting m) :
    Agrees m (frameXml junk0 junk t ts) (frameXmlOwned junk0 junk t ts m) := by
  obtain ⟨r1, r2⟩ := frameDataParseOwned_runs t.1 FrameData.new [] m hm
  unfold frameXml frameXmlOwned
  cases ho : frameDataParseOwned t.1 FrameData.new [] m with
  | error e => rw [r1 e ho]; exact rfl
  | ok q =>
    obtain ⟨c, w, recs, m1⟩ := q
    obtain ⟨news, g1, hg1, hrecs, hsame⟩ := r2 c w recs m1 ho
    rcases hsame with ⟨_, hng, _⟩ | hsame
    · exact absurd hg hng
    have hok := g1.ok hm
    have hgr := hg1 hg
    -- the record list of the result is what was allocated
    have hk : Kept m m1 recs ∧ recs.length = w.var.records.length := by
      rcases hrecs with ⟨rfl, rfl, hno⟩ | ⟨hperm, _, _, _, hlen⟩
      · refine ⟨⟨[], g1, .nil⟩, ?_⟩
        by_cases hv : t.1.control &&& MASK_DIR = MASK_DIR_S2M ∧ t.1.ci = 0x72 ∧ t.1.dataSize ≠ 0
        · rw [rsp_dir _ _ hv, variableParse_short _ _ (by
            have := hv.1; have := hv.2.1
            by_cases h12 : 12 ≤ t.1.dataSize
            · exact absurd ⟨hv.1, hv.2.1, h12⟩ hno
            · omega), ok_bind] at hsame
          injection hsame with hsame
          injection hsame with _ hsame
          rw [← hsame]
          rfl
        · obtain ⟨_, u2⟩ := frameDataParse_other t.1 FrameData.new FrameData.new.var hv
          rw [(u2 c w hsame).1]
          rfl
      · exact ⟨⟨news, g1, hperm.symm⟩, hlen.symm⟩
    obtain ⟨hk, hl⟩ := hk
    rw [hsame, ok_bind, ok_bind]
    dsimp only
    by_cases hc : c = -1
    · rw [if_pos hc, if_pos hc]
      obtain ⟨n1, g2, q2⟩ := hk
      exact ⟨none, m1, n1, rfl, g2, hgr, rfl, by have := q2.length_eq; simp at this ⊢; omega⟩
    rw [if_neg hc, if_neg hc]
    -- anything but variable data leaves no records
    have hnone : w.type ≠ DATA_VARIABLE → recs = [] := by
      intro hty
      rcases hrecs with ⟨_, rfl, _⟩ | ⟨_, d1, d2, d3, _⟩
      · rfl
      · exfalso
        rw [rsp_dir t.1 _ ⟨d1, d2, by omega⟩] at hsame
        obtain ⟨q, _, hq⟩ := bind_eq_ok.mp hsame
        injection hq with hq
        injection hq with _ hq
        rw [← hq] at hty
        exact hty rfl
    by_cases h1 : w.type = DATA_ERROR
    · rw [if_pos h1, if_pos h1]
      have hr := hnone (by rw [h1]; decide)
      subst hr
      generalize errorXml junk0 w.error = text
      exact buffer_on hm hk text hgr
    rw [if_neg h1, if_neg h1]
    by_cases h2 : w.type = DATA_FIXED
    · rw [if_pos h2, if_pos h2]
      have hr := hnone (by rw [h2]; decide)
      subst hr
      generalize fixedXml junk0 w.fix = text
      exact buffer_on hm hk text hgr
    rw [if_neg h2, if_neg h2]
    by_cases h3 : w.type = DATA_VARIABLE
    · rw [if_pos h3, if_pos h3]
      unfold sequenceXmlOwned
      generalize malloc (scratch junk0 3) 8192 = room
      generalize (if ts.isEmpty = true then (-1 : Int) else 0) = fc
      generalize XML_PI = pi
      generalize (cs! "<MBusData>\n\n") = pre
      rcases alloc_cases m1 room with ⟨m2, e, g, hg2⟩ | ⟨m2, e, g, hg2⟩
      · rw [e]
        dsimp only
        have hk2 : Kept m m2 (m1.next :: recs) := hk.trans ⟨_, g, .refl _⟩
        cases q1 : XBuf.put ⟨room, 0⟩ pi with
        | error e => exact rfl
        | ok b1 =>
        rw [ok_bind, ok_bind]
        cases q2 : b1.put pre with
        | error e => exact rfl
        | ok b2 =>
        rw [ok_bind, ok_bind]
        cases q3 : headerXml junk0 w.var.header with
        | error e => exact rfl
        | ok h =>
        rw [ok_bind, ok_bind]
        cases q4 : b2.put h with
        | error e => exact rfl
        | ok b3 =>
        rw [ok_bind, ok_bind]
        obtain ⟨s1, s2⟩ := printListOwned_same junk fc hm t.2 w recs hl 0 b3 m1.next m2 hk2 (hg2 hgr)
        cases hp : recordsXml junk fc (w.var.records.map (·, t.2)) 0 b3 with
        | error e => rw [s1 e hp]; exact rfl
        | ok z =>
          obtain ⟨b', cnt'⟩ := z
          obtain ⟨p', m3, t1, t2, t3, t4⟩ := s2 b' cnt' hp
          rw [t1, ok_bind, ok_bind]
          dsimp only
          cases hi : int32 (fc + 1) with
          | error e => exact rfl
          | ok fc' =>
            rw [ok_bind, ok_bind]
            exact chainXmlOwned_same junk hm ts w recs cnt' fc' b' p' m3 t2 t3 hl t4
      · exact absurd hgr hg2
    · rw [if_neg h3, if_neg h3]
      have hr := hnone h3
      subst hr
      obtain ⟨n1, g2, q2⟩ := hk
      exact ⟨none, m1, n1, rfl, g2, hgr, rfl, by have := q2.length_eq; simpa using this⟩

end Mbus
