import Verif.Lemmas.XmlMem
import Verif.Lemmas.XmlExact
/- The XML functions with memory, for records of any length. -/
namespace Mbus
open Spec

theorem recordsXmlOwned_fares (junk : Nat → Nat → Byte) (frame : Option Nat) (hf : ∀ k, frame = some k → k < 2 ^ 31) {m0 : Mem} (hm : MemOk m0) (all : List Nat)
    (its : List Item) (h : ∀ it ∈ its, Fit it) : ∀ (recs : List Nat), (∀ a ∈ recs, a ∈ all) → recs.length = its.length →
    ∀ (start : Nat), start + its.length < 2 ^ 31 → ∀ (b : XBuf) (room : Room) (t : List Byte), Shows b room t → ∀ (p : Nat) (m : Mem), Kept m0 m (p :: all) →
    (∃ p' m', recordsXmlOwned junk (frameArg frame) (recs.zip (its.map fun it => (it.1, it.2.2))) start b p m = .ok (none, p', m') ∧
      Kept m0 m' (p' :: all) ∧ ¬ Granting m) ∨
    Fares (recordsXmlOwned junk (frameArg frame) (recs.zip (its.map fun it => (it.1, it.2.2))) start b p m) (room.records (whole (recordGroupsCut frame start its)))
      (fun room' q => ∃ b' p' m', q = (some (b', ((start + its.length : Nat) : Int)), p', m') ∧ Kept m0 m' (p' :: all) ∧ (Granting m → Granting m') ∧
        Shows b' room' (t ++ (recordGroupsCut frame start its).flatMap Group.render)) := by
  induction its with
  | nil =>
    intro recs _ hl start hc b room t hb p m hk
    have : recs = [] := List.eq_nil_of_length_eq_zero hl
    subst this
    exact .inr (.ok ⟨b, p, m, rfl, hk, id, by simpa [recordGroupsCut] using hb⟩)
  | cons it its ih =>
    intro recs hall hl start hc b room t hb p m hk
    obtain ⟨a, recs, rfl⟩ : ∃ a rs, recs = a :: rs := by
      cases recs with
      | nil => simp at hl
      | cons a rs => exact ⟨a, rs, rfl⟩
    obtain ⟨r, u, stamp⟩ := it
    have hc' : start + 1 + its.length < 2 ^ 31 := by simp at hc; omega
    have e1 := recordXml_exact (junk ((start : Int)).toNat) (r, u, stamp) (h _ (List.mem_cons_self ..)) start (by omega) frame hf
    dsimp only at e1
    simp only [List.map_cons, List.zip_cons_cons, recordsXmlOwned, recordGroupsCut, whole, Room.records, texts_one]
    obtain ⟨s, hs⟩ := hk.load hm (a := a) (List.mem_cons_of_mem _ (hall a (List.mem_cons_self ..)))
    rw [hs, ok_bind]
    rcases growOwned_kept (scratch (junk ((start : Int)).toNat) 3) b hm hk with ⟨m1, w1, w2, w3⟩ | ⟨p1, m1, w1, w2, w3⟩
    · rw [w1, ok_bind]
      exact .inl ⟨p, m1, rfl, w2, w3⟩
    · rw [w1, ok_bind]
      dsimp only
      rw [e1, ok_bind]
      rcases put_shows (grow_shows (scratch (junk ((start : Int)).toNat) 3) hb) (recordGroupCut start frame r u stamp).render with
        ⟨h1, n, i, h2⟩ | ⟨room', b', h1, h2, hb'⟩
      · refine .inr (.inl ⟨?_, n, i, ?_⟩)
        · rw [h1]; rfl
        · rw [h2]; rfl
      · rw [h2, ok_bind, h1, Option.bind_some]
        have : ((start : Int) + 1) = ((start + 1 : Nat) : Int) := by simp
        rw [this, int32_nat _ (by omega), ok_bind]
        rcases ih (fun x hx => h x (List.mem_cons_of_mem _ hx)) recs (fun x hx => hall x (List.mem_cons_of_mem _ hx))
          (by simpa using hl) (start + 1) (by omega) b' room' _ hb' p1 m1 w2 with ⟨p', m', r1, r2, r3⟩ | r1
        · exact .inl ⟨p', m', r1, r2, fun hg => r3 (w3 hg)⟩
        · refine .inr (r1.mono fun room2 q hq => ?_)
          obtain ⟨b2, p2, m2, rfl, s1, s2, s3⟩ := hq
          refine ⟨b2, p2, m2, ?_, s1, fun hg => s2 (w3 hg), by simpa using s3⟩
          have : start + 1 + its.length = start + (its.length + 1) := by omega
          simp [this]

/-- Printing and releasing the records of one telegram. -/
theorem printListOwned_fares (junk : Nat → Nat → Byte) (frame : Option Nat) (hf : ∀ k, frame = some k → k < 2 ^ 31) {m0 : Mem} (hm : MemOk m0)
    (its : List Item) (h : ∀ it ∈ its, Fit it) (stamp : Option (List Byte)) (hst : ∀ it ∈ its, it.2.2 = stamp) (x : FrameData) (hx : x.var.records = its.map (·.1))
    (recs : List Nat) (hl : recs.length = its.length) (start : Nat) (hc : start + its.length < 2 ^ 31) (b : XBuf) (room : Room) (t : List Byte) (hb : Shows b room t)
    (p : Nat) (m : Mem) (hk : Kept m0 m (p :: recs)) :
    (∃ m', printListOwned junk (frameArg frame) stamp x recs start b p m = .ok (none, m') ∧ Grown m0 m' [] ∧ ¬ Granting m) ∨
    Fares (printListOwned junk (frameArg frame) stamp x recs start b p m) (room.records (whole (recordGroupsCut frame start its)))
      (fun room' q => ∃ b' p' m', q = (some (b', ((start + its.length : Nat) : Int), p'), m') ∧ Kept m0 m' [p'] ∧ (Granting m → Granting m') ∧
        Shows b' room' (t ++ (recordGroupsCut frame start its).flatMap Group.render)) := by
  unfold printListOwned
  rw [hx, items_map its stamp hst]
  rcases recordsXmlOwned_fares junk frame hf hm recs its h recs (fun _ h => h) hl start hc b room t hb p m hk with ⟨p', m', r1, r2, r3⟩ | r1
  · rw [r1, ok_bind]
    dsimp only
    obtain ⟨m2, h1, h2, _⟩ := r2.free hm
    have hseq : (m'.free p' >>= fun m => m.freeList recs >>= fun m => (.ok ((none : Option (XBuf × Int × Nat)), m) : C _)) = .ok (none, m2) := by
      have : m'.freeList (p' :: recs) = (m'.free p' >>= fun m => m.freeList recs) := rfl
      rw [this] at h1
      cases hf : m'.free p' with
      | error e => rw [hf] at h1; cases h1
      | ok z => rw [hf, ok_bind] at h1; rw [ok_bind, h1, ok_bind]
    exact .inl ⟨m2, hseq, h2, r3⟩
  · refine .inr ?_
    rcases r1 with ⟨h1, n, i, h2⟩ | ⟨room', q, h1, h2, b', p', m', rfl, s1, s2, s3⟩
    · rw [h2]
      exact .inl ⟨h1, n, i, rfl⟩
    · rw [h2, h1, ok_bind]
      dsimp only
      have hk2 : Kept m0 m' ([p'] ++ recs) := s1
      obtain ⟨m2, f1, f2, f3⟩ := hk2.part hm
      rw [f1, ok_bind]
      exact .ok ⟨b', p', m2, rfl, f2, fun hg => granting_of_eq f3 (s2 hg), s3⟩

/-- The end of a document in a block. -/
theorem closeOwned_fares {m0 m : Mem} (hm : MemOk m0) {p : Nat} (hk : Kept m0 m [p]) {b : XBuf} {room : Room} {t : List Byte} (h : Shows b room t) :
    Fares (b.put (cs! "</MBusData>\n") >>= fun b => (.ok (some p, m.store p b.mem) : C (Option Nat × Mem))) (room.text 12)
      (fun r a => ∃ b', Shows b' r (t ++ cs! "</MBusData>\n") ∧ ∃ q, a.1 = some q ∧ Grown m0 a.2 [(q, b'.mem)]) := by
  have h2 := put_shows h (cs! "</MBusData>\n")
  rcases h2 with ⟨h1, n, i, h2⟩ | ⟨r, b', h1, h2, h3⟩
  · rw [h2]
    exact .inl ⟨h1, n, i, rfl⟩
  · rw [h2, ok_bind]
    exact .inr ⟨r, _, h1, rfl, b', h3, p, rfl, hk.store hm _⟩

theorem prefix_refls (tss : List (List Item)) : Pointwise (fun a b => a <+: b) tss tss := by
  induction tss with
  | nil => exact .nil
  | cons a l ih => exact .cons (List.prefix_refl _) ih

theorem chainXmlOwned_fares (junk : Nat → Nat → Byte) {m0 : Mem} (hm : MemOk m0) (ts : List Telegram) (tss : List (List Item)) (hp : Pointwise ItemsOf ts tss)
    (hr : ∀ its ∈ tss, ∀ it ∈ its, Fit it) (x : FrameData) (recs : List Nat) (cnt k : Nat) (hc : cnt + total tss < 2 ^ 31)
    (hk : k + tss.length < 2 ^ 31) (b : XBuf) (room : Room) (t : List Byte) (hb : Shows b room t) (p : Nat) (m : Mem) (hp0 : Kept m0 m [p]) :
    (∃ m', chainXmlOwned junk ts x recs cnt k b p m = .ok (none, m') ∧ Grown m0 m' [] ∧ ¬ Granting m) ∨
    ∃ tss', Pointwise (fun a b => a <+: b) tss' tss ∧ (Granting m → tss' = tss) ∧
      Fares (chainXmlOwned junk ts x recs cnt k b p m) ((room.records (whole (telegramGroupsCut cnt k tss'))).bind fun r => r.text 12)
        (fun r a => ∃ b', Shows b' r (t ++ (telegramGroupsCut cnt k tss').flatMap Group.render ++ cs! "</MBusData>\n") ∧ ∃ q, a.1 = some q ∧ Grown m0 a.2 [(q, b'.mem)]) := by
  induction hp generalizing x recs cnt k b t room p m with
  | nil =>
    refine .inr ⟨[], .nil, fun _ => rfl, ?_⟩
    unfold chainXmlOwned
    refine (closeOwned_fares hm hp0 hb).mono fun r a ha => ?_
    simpa [telegramGroupsCut] using ha
  | @cons tel its ts tss hi _ ih =>
    obtain ⟨f, stamp⟩ := tel
    obtain ⟨⟨h, hreads⟩, hst⟩ := hi
    dsimp only at hst hreads
    obtain ⟨c, w, recs', m1, o1, o2, o3, o4, o5, o6, o7, o8⟩ := hreads.owned x recs (hp0.ok hm)
    obtain ⟨its', hpre, hits⟩ := prefix_map _ _ _ o5
    have hlen := hpre.length_le
    have hc1 : cnt + its'.length + total tss < 2 ^ 31 := by simp [total] at hc ⊢; omega
    have hk1 : k + 1 + tss.length < 2 ^ 31 := by simp at hk; omega
    have hwhole : Granting m → its' = its := by
      intro hg
      have := (o8 hg).2
      rw [hits] at this
      exact hpre.eq_of_length (by simpa using congrArg List.length this)
    unfold chainXmlOwned
    rw [o1, ok_bind]
    dsimp only
    rw [if_neg o2]
    have ew : ∀ l, whole (telegramGroupsCut cnt k (its' :: l)) = whole (recordGroupsCut (some k) cnt its') ++ whole (telegramGroupsCut (cnt + its'.length) (k + 1) l) := by
      intro l
      simp [whole, telegramGroupsCut]
    rcases printListOwned_fares junk (some k) (fun j h => by injection h with h; omega) hm its'
      (fun it hit => hr its (List.mem_cons_self ..) it (hpre.subset hit)) stamp (fun it hit => hst it (hpre.subset hit)) w hits recs' (by rw [o6, hits]; simp) cnt
      (by omega) b room t hb p m1 ((hp0.trans o7).perm (List.perm_append_singleton _ _)) with ⟨m2, q1, q2, q3⟩ | q
    · have q1' : printListOwned junk (k : Int) stamp w recs' (cnt : Int) b p m1 = .ok (none, m2) := q1
      rw [q1', ok_bind]
      exact .inl ⟨m2, rfl, q2, fun hg => q3 (o8 hg).1⟩
    · rcases q with ⟨h1, n, i, h2⟩ | ⟨room', q, h1, h2, b', p', m2, rfl, k2, hg2, hb'⟩
      · have h2' : printListOwned junk (k : Int) stamp w recs' (cnt : Int) b p m1 = .error (.oobWrite n i) := h2
        refine .inr ⟨its' :: tss, .cons hpre (prefix_refls tss), fun hg => by rw [hwhole hg], .inl ⟨?_, n, i, ?_⟩⟩
        · rw [ew, records_append, h1]; rfl
        · rw [h2']; rfl
      · have h2' : printListOwned junk (k : Int) stamp w recs' (cnt : Int) b p m1 = .ok (some (b', ((cnt + its'.length : Nat) : Int), p'), m2) := h2
        rw [h2', ok_bind]
        dsimp only
        have : ((k : Int) + 1) = ((k + 1 : Nat) : Int) := by simp
        rw [this, int32_nat _ (by omega), ok_bind]
        rcases ih (fun i hi => hr i (List.mem_cons_of_mem _ hi)) w recs' (cnt + its'.length) (k + 1) hc1 hk1 b' room' _ hb' p' m2 k2 with
          ⟨m3, s1, s2, s3⟩ | ⟨tss', s1, s2, s3⟩
        · exact .inl ⟨m3, s1, s2, fun hg => s3 (hg2 (o8 hg).1)⟩
        · refine .inr ⟨its' :: tss', .cons hpre s1, fun hg => ?_, ?_⟩
          · rw [hwhole hg, s2 (hg2 (o8 hg).1)]
          · rw [ew, records_append, h1, Option.bind_some]
            refine s3.mono fun r a ha => ?_
            simpa [telegramGroupsCut] using ha

/-- The sequence of telegrams, after the first was parsed. -/
theorem sequenceXmlOwned_fares (junk0 : Nat → Byte) (junk : Nat → Nat → Byte) (w : FrameData) (recs : List Nat) (stamp : Option (List Byte)) (ts : List Telegram) (its : List Item)
    (tss : List (List Item)) (p : List Byte) (hp : productName w.var.header = .ok p) (hits : w.var.records = its.map (·.1)) (hl' : recs.length = its.length)
    (hst : ∀ it ∈ its, it.2.2 = stamp) (hi : Pointwise ItemsOf ts tss) (hr : ∀ i ∈ its :: tss, ∀ it ∈ i, Fit it)
    (hc : total (its :: tss) < 2 ^ 31) (hk : (its :: tss).length < 2 ^ 31) {m m1 : Mem} (hm : MemOk m) (o7 : Kept m m1 recs) :
    (∃ m', sequenceXmlOwned junk0 junk w recs stamp ts m1 = .ok (none, m') ∧ Grown m m' [] ∧ ¬ Granting m1) ∨
    ∃ tss', Pointwise (fun a b => a <+: b) tss' tss ∧ (Granting m1 → tss' = tss) ∧
      Fares (sequenceXmlOwned junk0 junk w recs stamp ts m1)
        (((Room.mk 8192 (startLength (slaveGroup w.var.header p (mediumLookup w.var.header.medium))) none).records (whole (readoutGroupsCut (its :: tss')))).bind fun r => r.text 12)
        (fun r a => ∃ b', Shows b' r (document (slaveGroup w.var.header p (mediumLookup w.var.header.medium) :: readoutGroupsCut (its :: tss'))) ∧
          ∃ q, a.1 = some q ∧ Grown m a.2 [(q, b'.mem)]) := by
  have hc1 : its.length + total tss < 2 ^ 31 := by simp [total] at hc ⊢; omega
  have hk1 : 1 + tss.length < 2 ^ 31 := by simp at hk; omega
  unfold sequenceXmlOwned
  rcases alloc_cases m1 (malloc (scratch junk0 3) 8192) with ⟨m2, e, g, hg⟩ | ⟨m2, e, g, hg⟩
  · rw [e]
    dsimp only
    obtain ⟨p', hp', x1, x2, x3⟩ := headerXml_runs junk0 w.var.header
    rw [hp] at hp'
    injection hp' with hp'
    subst hp'
    obtain ⟨b1, e1, hb1⟩ := put_runs (holds_new (scratch junk0 3) 8192) XML_PI (by simp [XML_PI])
    obtain ⟨b2, e2, hb2⟩ := put_runs hb1.holds (cs! "<MBusData>\n\n") (by simp [XML_PI])
    obtain ⟨b, e3, hb3⟩ := put_runs hb2.holds (slaveGroup w.var.header p (mediumLookup w.var.header.medium)).render (by simp [XML_PI]; omega)
    have hb3' : Text b 8192 (cs! "<?xml version=\"1.0\" encoding=\"ISO-8859-1\"?>\n<MBusData>\n\n" ++
        (slaveGroup w.var.header p (mediumLookup w.var.header.medium)).render) := by simpa [XML_PI] using hb3
    rw [e1, ok_bind, e2, ok_bind, x1, ok_bind, e3, ok_bind]
    have hb : Shows b ⟨8192, startLength (slaveGroup w.var.header p (mediumLookup w.var.header.medium)), none⟩
        (cs! "<?xml version=\"1.0\" encoding=\"ISO-8859-1\"?>\n<MBusData>\n\n" ++ (slaveGroup w.var.header p (mediumLookup w.var.header.medium)).render) := by
      have := roomy_shows hb3'
      rw [List.length_append] at this
      exact this
    have hkp : Kept m m2 (m1.next :: recs) := o7.trans ⟨_, g, .refl _⟩
    have hready : ∀ it ∈ its, Fit it := hr its (List.mem_cons_self ..)
    cases hi with
    | nil =>
      have e : (if List.isEmpty ([] : List Telegram) = true then (-1 : Int) else 0) = frameArg none := rfl
      rw [e]
      rcases printListOwned_fares junk none (by simp) hm its hready stamp hst w hits recs hl' 0 (by omega) b _ _ hb m1.next m2 hkp with ⟨m3, q1, q2, q3⟩ | q
      · have q1' : printListOwned junk (frameArg none) stamp w recs 0 b m1.next m2 = .ok (none, m3) := q1
        rw [q1', ok_bind]
        exact .inl ⟨m3, rfl, q2, fun hgr => q3 (hg hgr)⟩
      · refine .inr ⟨[], .nil, fun _ => rfl, ?_⟩
        rcases q with ⟨h1, n, i, h2⟩ | ⟨room', q, h1, h2, b', p', m3, rfl, k2, hg2, hb'⟩
        · have h2' : printListOwned junk (frameArg none) stamp w recs 0 b m1.next m2 = .error (.oobWrite n i) := h2
          refine .inl ⟨?_, n, i, ?_⟩
          · simp only [readoutGroupsCut]; rw [h1]; rfl
          · rw [h2']; rfl
        · have h2' : printListOwned junk (frameArg none) stamp w recs 0 b m1.next m2 = .ok (some (b', ((0 + its.length : Nat) : Int), p'), m3) := h2
          rw [h2', ok_bind]
          dsimp only
          have e2 : int32 (frameArg none + 1) = .ok 0 := rfl
          rw [e2, ok_bind]
          unfold chainXmlOwned
          simp only [readoutGroupsCut]
          rw [h1, Option.bind_some]
          refine (closeOwned_fares hm k2 hb').mono fun r a ha => ?_
          simpa [document] using ha
    | @cons t2 i2 ts2 tss2 hi2 hi3 =>
      have e : (if List.isEmpty (t2 :: ts2) = true then (-1 : Int) else 0) = frameArg (some 0) := rfl
      rw [e]
      have ew : ∀ j2 l, readoutGroupsCut (its :: j2 :: l) = recordGroupsCut (some 0) 0 its ++ telegramGroupsCut (0 + its.length) 1 (j2 :: l) := by
        intro j2 l
        simp [readoutGroupsCut, telegramGroupsCut]
      have ww : ∀ a c, whole (a ++ c) = whole a ++ whole c := by intro a c; simp [whole]
      rcases printListOwned_fares junk (some 0) (by simp) hm its hready stamp hst w hits recs hl' 0 (by omega) b _ _ hb m1.next m2 hkp with ⟨m3, q1, q2, q3⟩ | q
      · have q1' : printListOwned junk (frameArg (some 0)) stamp w recs 0 b m1.next m2 = .ok (none, m3) := q1
        rw [q1', ok_bind]
        exact .inl ⟨m3, rfl, q2, fun hgr => q3 (hg hgr)⟩
      · rcases q with ⟨h1, n, i, h2⟩ | ⟨room', q, h1, h2, b', p', m3, rfl, k2, hg2, hb'⟩
        · have h2' : printListOwned junk (frameArg (some 0)) stamp w recs 0 b m1.next m2 = .error (.oobWrite n i) := h2
          refine .inr ⟨i2 :: tss2, prefix_refls _, fun _ => rfl, .inl ⟨?_, n, i, ?_⟩⟩
          · rw [ew, ww, records_append, h1]; rfl
          · rw [h2']; rfl
        · have h2' : printListOwned junk (frameArg (some 0)) stamp w recs 0 b m1.next m2 = .ok (some (b', ((0 + its.length : Nat) : Int), p'), m3) := h2
          rw [h2', ok_bind]
          dsimp only
          have e2 : int32 (frameArg (some 0) + 1) = .ok ((1 : Nat) : Int) := rfl
          rw [e2, ok_bind]
          rcases chainXmlOwned_fares junk hm (t2 :: ts2) (i2 :: tss2) (.cons hi2 hi3) (fun i hi => hr i (List.mem_cons_of_mem _ hi)) w recs
            (0 + its.length) 1 (by omega) hk1 b' room' _ hb' p' m3 k2 with ⟨m4, s1, s2, s3⟩ | ⟨tss', s1, s2, s3⟩
          · exact .inl ⟨m4, s1, s2, fun hgr => s3 (hg2 (hg hgr))⟩
          · refine .inr ⟨tss', s1, fun hgr => s2 (hg2 (hg hgr)), ?_⟩
            cases s1 with
            | cons _ _ =>
              rw [ew, ww, records_append, h1, Option.bind_some]
              refine s3.mono fun r a ha => ?_
              simpa [document] using ha
  · rw [e]
    dsimp only
    obtain ⟨m3, f1, f2, _⟩ := Spec.Kept.free hm (by simpa using o7.trans ⟨_, g, .refl _⟩)
    rw [f1, ok_bind]
    exact .inl ⟨m3, rfl, f2, hg⟩

/-- The document of a chain of variable-data telegrams. -/
theorem frameXmlOwned_fares (junk0 : Nat → Byte) (junk : Nat → Nat → Byte) (t : Telegram) (ts : List Telegram) (its : List Item)
    (tss : List (List Item)) (h : VarHeader) (p : List Byte) (hp : productName h = .ok p) (hread : Reads t.1 h (its.map (·.1)))
    (hst : ∀ it ∈ its, it.2.2 = t.2) (hi : Pointwise ItemsOf ts tss) (hr : ∀ i ∈ its :: tss, ∀ it ∈ i, Fit it)
    (hc : total (its :: tss) < 2 ^ 31) (hk : (its :: tss).length < 2 ^ 31) {m : Mem} (hm : MemOk m) :
    (∃ m', frameXmlOwned junk0 junk t ts m = .ok (none, m') ∧ Grown m m' [] ∧ ¬ Granting m) ∨
    ∃ tss', Pointwise (fun a b => a <+: b) tss' (its :: tss) ∧ (Granting m → tss' = its :: tss) ∧
      Fares (frameXmlOwned junk0 junk t ts m)
        (((Room.mk 8192 (startLength (slaveGroup h p (mediumLookup h.medium))) none).records (whole (readoutGroupsCut tss'))).bind fun r => r.text 12)
        (fun r a => ∃ b', Shows b' r (document (slaveGroup h p (mediumLookup h.medium) :: readoutGroupsCut tss')) ∧
          ∃ q, a.1 = some q ∧ Grown m a.2 [(q, b'.mem)]) := by
  obtain ⟨c, w, recs, m1, o1, o2, o3, o4, o5, o6, o7, o8⟩ := hread.owned FrameData.new [] hm
  obtain ⟨its', hpre, hits⟩ := prefix_map _ _ _ o5
  have hlen := hpre.length_le
  have hwhole : Granting m → its' = its := by
    intro hg
    have := (o8 hg).2
    rw [hits] at this
    exact hpre.eq_of_length (by simpa using congrArg List.length this)
  unfold frameXmlOwned
  rw [o1, ok_bind]
  dsimp only
  rw [if_neg o2, if_neg (by rw [o3]; decide), if_neg (by rw [o3]; decide), if_pos o3]
  subst o4
  rcases sequenceXmlOwned_fares junk0 junk w recs t.2 ts its' tss p hp hits (by rw [o6, hits]; simp) (fun it hit => hst it (hpre.subset hit)) hi
    (fun i hi it hit => by
      rcases List.mem_cons.mp hi with rfl | hi
      · exact hr its (List.mem_cons_self ..) it (hpre.subset hit)
      · exact hr i (List.mem_cons_of_mem _ hi) it hit) (by simp [total] at hc ⊢; omega) (by simpa using hk) hm o7 with ⟨m2, s1, s2, s3⟩ | ⟨tss', s1, s2, s3⟩
  · exact .inl ⟨m2, s1, s2, fun hg => s3 (o8 hg).1⟩
  · exact .inr ⟨its' :: tss', .cons hpre s1, fun hg => by rw [hwhole hg, s2 (o8 hg).1], s3⟩

end Mbus
