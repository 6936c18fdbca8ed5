import Verif.Spec.XmlMem
import Verif.Lemmas.SessionMem
import Verif.Lemmas.XmlDoc
/- The XML functions when memory may run out. -/
namespace Mbus
open Spec

theorem Spec.Kept.ok {m m' : Mem} {as : List Nat} (h : Kept m m' as) (hm : MemOk m) : MemOk m' := by
  obtain ⟨_, g, _⟩ := h
  exact g.ok hm

theorem Spec.Kept.trans {m m' m'' : Mem} {as bs : List Nat} (h : Kept m m' as) (h' : Kept m' m'' bs) : Kept m m'' (bs ++ as) := by
  obtain ⟨n1, g1, p1⟩ := h
  obtain ⟨n2, g2, p2⟩ := h'
  exact ⟨n2 ++ n1, g1.trans g2, by rw [List.map_append]; exact p2.append p1⟩

theorem Spec.Kept.perm {m m' : Mem} {as bs : List Nat} (h : Kept m m' as) (hp : as.Perm bs) : Kept m m' bs := by
  obtain ⟨n1, g1, p1⟩ := h
  exact ⟨n1, g1, p1.trans hp⟩

theorem Spec.Kept.free {m0 m : Mem} {as : List Nat} (hm : MemOk m0) (h : Kept m0 m as) : ∃ m', m.freeList as = .ok m' ∧ Grown m0 m' [] ∧ m'.answers = m.answers := by
  obtain ⟨news, g, hp⟩ := h
  exact freeList_rest hm g as hp.symm

theorem Spec.Kept.part {m0 m : Mem} {as rest : List Nat} (hm : MemOk m0) (h : Kept m0 m (rest ++ as)) :
    ∃ m', m.freeList as = .ok m' ∧ Kept m0 m' rest ∧ m'.answers = m.answers := by
  obtain ⟨news, g, hp⟩ := h
  obtain ⟨m', news', h1, h2, h3, h4⟩ := freeList_part hm g as rest (hp.trans List.perm_append_comm)
  exact ⟨m', h1, ⟨news', h2, h3⟩, h4⟩

theorem Spec.Kept.load {m0 m : Mem} {as : List Nat} (hm : MemOk m0) (h : Kept m0 m as) {a : Nat} (ha : a ∈ as) : ∃ s, m.load a = .ok s := by
  have hok := h.ok hm
  obtain ⟨news, g, hp⟩ := h
  obtain ⟨x, hx, rfl⟩ := List.mem_map.mp (hp.mem_iff.mpr ha)
  exact ⟨x.2, load_live hok (by rw [g.live]; exact List.mem_append_left _ hx)⟩

/-- Doubling the buffer in block `p`. -/
theorem growOwned_kept (junk : Nat → Byte) (b : XBuf) {m0 m : Mem} {p : Nat} {all : List Nat} (hm : MemOk m0) (h : Kept m0 m (p :: all)) :
    (∃ m', growOwned junk b p m = .ok (none, m') ∧ Kept m0 m' (p :: all) ∧ ¬ Granting m) ∨
    (∃ p' m', growOwned junk b p m = .ok (some (b.grow junk, p'), m') ∧ Kept m0 m' (p' :: all) ∧ (Granting m → Granting m')) := by
  unfold growOwned
  by_cases hc : b.len ≤ b.mem.length ∧ b.mem.length - b.len < 1024
  · rw [if_pos hc]
    rcases alloc_cases m (b.grow junk).mem with ⟨m1, e, g, hg⟩ | ⟨m1, e, g, hg⟩
    · rw [e]
      dsimp only
      have k : Kept m0 m1 ((m.next :: all) ++ [p]) := (h.trans ⟨_, g, .refl _⟩).perm (List.perm_iff_count.mpr fun x => by
        simp [List.count_cons, List.count_append])
      obtain ⟨m2, h1, h2, h3⟩ := k.part hm
      have h1' : m1.free p = .ok m2 := by
        have : m1.freeList [p] = (m1.free p >>= fun m => .ok m) := rfl
        rw [this] at h1
        cases hf : m1.free p with
        | error e => rw [hf] at h1; cases h1
        | ok z => rw [hf, ok_bind] at h1; exact h1
      rw [h1', ok_bind]
      exact .inr ⟨_, _, rfl, h2, fun hgr => granting_of_eq h3 (hg hgr)⟩
    · rw [e]
      exact .inl ⟨_, rfl, by simpa using h.trans ⟨_, g, .refl _⟩, hg⟩
  · rw [if_neg hc]
    have : b.grow junk = b := by unfold XBuf.grow; rw [if_neg hc]
    rw [this]
    exact .inr ⟨_, _, rfl, h, id⟩

theorem recordsXmlOwned_runs (junk : Nat → Nat → Byte) (frame : Option Nat) (hf : ∀ k, frame = some k → k < 2 ^ 31) {m0 : Mem} (hm : MemOk m0) (all : List Nat)
    (its : List Item) (h : ∀ it ∈ its, Ready it) : ∀ (recs : List Nat), (∀ a ∈ recs, a ∈ all) → recs.length = its.length →
    ∀ (start : Nat), start + its.length < 2 ^ 31 → ∀ (b : XBuf) (t : List Byte), Roomy b t → ∀ (p : Nat) (m : Mem), Kept m0 m (p :: all) →
    ∃ g p' m', recordsXmlOwned junk (frameArg frame) (recs.zip (its.map fun it => (it.1, it.2.2))) start b p m = .ok (g, p', m') ∧
      Kept m0 m' (p' :: all) ∧ (Granting m → Granting m' ∧ g ≠ none) ∧
      ∀ b' cnt', g = some (b', cnt') → cnt' = ((start + its.length : Nat) : Int) ∧ Roomy b' (t ++ (recordGroups frame start its).flatMap Group.render) := by
  induction its with
  | nil =>
    intro recs _ hl start hc b t hb p m hk
    have : recs = [] := List.eq_nil_of_length_eq_zero hl
    subst this
    refine ⟨some (b, start), p, m, rfl, hk, fun hg => ⟨hg, by simp⟩, fun b' cnt' he => ?_⟩
    injection he with he
    injection he with h1 h2
    subst h1; subst h2
    exact ⟨rfl, by simpa [recordGroups] using hb⟩
  | cons it its ih =>
    intro recs hall hl start hc b t hb p m hk
    obtain ⟨a, recs, rfl⟩ : ∃ a rs, recs = a :: rs := by
      cases recs with
      | nil => simp at hl
      | cons a rs => exact ⟨a, rs, rfl⟩
    obtain ⟨n, h1, h2, h3⟩ := hb
    obtain ⟨n', g1, g2, g3⟩ := grow_text (scratch (junk ((start : Int)).toNat) 3) h3 h1 (by omega)
    have hc' : start + 1 + its.length < 2 ^ 31 := by simp at hc; omega
    obtain ⟨e1, e2, e3⟩ := recordXml_modest (junk ((start : Int)).toNat) it (h it (List.mem_cons_self ..)) start (by omega) frame hf
    simp only [List.map_cons, List.zip_cons_cons, recordsXmlOwned]
    obtain ⟨s, hs⟩ := hk.load hm (a := a) (List.mem_cons_of_mem _ (hall a (List.mem_cons_self ..)))
    rw [hs, ok_bind]
    rcases growOwned_kept (scratch (junk ((start : Int)).toNat) 3) b hm hk with ⟨m1, w1, w2, w3⟩ | ⟨p1, m1, w1, w2, w3⟩
    · rw [w1, ok_bind]
      exact ⟨none, p, m1, rfl, w2, fun hg => absurd hg w3, fun b' cnt' he => by cases he⟩
    · rw [w1, ok_bind]
      dsimp only
      rw [e1, ok_bind]
      have key : Runs ((b.grow (scratch (junk ((start : Int)).toNat) 3)).put (recordGroup start frame it.1 it.2.1 it.2.2).render >>= fun b => .ok b)
          (fun b' => Text b' n' (t ++ (recordGroup start frame it.1 it.2.1 it.2.2).render)) :=
        put_bind g3.holds _ (by omega) fun b' hb' => .ok hb'
      obtain ⟨b', hb', hb''⟩ := key
      have hput : (b.grow (scratch (junk ((start : Int)).toNat) 3)).put (recordGroup start frame it.1 it.2.1 it.2.2).render = .ok b' := by
        cases hh : (b.grow (scratch (junk ((start : Int)).toNat) 3)).put (recordGroup start frame it.1 it.2.1 it.2.2).render with
        | error e => rw [hh] at hb'; cases hb'
        | ok z => rw [hh, ok_bind] at hb'; exact hb'
      rw [hput, ok_bind]
      have : ((start : Int) + 1) = ((start + 1 : Nat) : Int) := by simp
      rw [this, int32_nat _ (by omega), ok_bind]
      obtain ⟨g, p', m', r1, r2, r3, r4⟩ := ih (fun x hx => h x (List.mem_cons_of_mem _ hx)) recs (fun x hx => hall x (List.mem_cons_of_mem _ hx))
        (by simpa using hl) (start + 1) (by omega) b' _ ⟨n', g1, by simp; omega, hb''⟩ p1 m1 w2
      refine ⟨g, p', m', r1, r2, fun hg => r3 (w3 hg), fun b2 cnt' he => ?_⟩
      obtain ⟨q1, q2⟩ := r4 b2 cnt' he
      refine ⟨by rw [q1]; simp; omega, ?_⟩
      simpa [recordGroups] using q2

/-- Printing and releasing the records of one telegram. -/
theorem printListOwned_runs (junk : Nat → Nat → Byte) (frame : Option Nat) (hf : ∀ k, frame = some k → k < 2 ^ 31) {m0 : Mem} (hm : MemOk m0)
    (its : List Item) (h : ∀ it ∈ its, Ready it) (stamp : Option (List Byte)) (hst : ∀ it ∈ its, it.2.2 = stamp) (x : FrameData) (hx : x.var.records = its.map (·.1))
    (recs : List Nat) (hl : recs.length = its.length) (start : Nat) (hc : start + its.length < 2 ^ 31) (b : XBuf) (t : List Byte) (hb : Roomy b t) (p : Nat) (m : Mem)
    (hk : Kept m0 m (p :: recs)) :
    ∃ g m', printListOwned junk (frameArg frame) stamp x recs start b p m = .ok (g, m') ∧
      ((g = none ∧ Grown m0 m' [] ∧ ¬ Granting m) ∨
       ∃ b' p', g = some (b', ((start + its.length : Nat) : Int), p') ∧ Kept m0 m' [p'] ∧ (Granting m → Granting m') ∧
         Roomy b' (t ++ (recordGroups frame start its).flatMap Group.render)) := by
  unfold printListOwned
  rw [hx, items_map its stamp hst]
  obtain ⟨g, p', m', r1, r2, r3, r4⟩ := recordsXmlOwned_runs junk frame hf hm recs its h recs (fun _ h => h) hl start hc b t hb p m hk
  rw [r1, ok_bind]
  dsimp only
  cases g with
  | none =>
    obtain ⟨m2, h1, h2, _⟩ := r2.free hm
    have hseq : (m'.free p' >>= fun m => m.freeList recs >>= fun m => (.ok ((none : Option (XBuf × Int × Nat)), m) : C _)) = .ok (none, m2) := by
      have : m'.freeList (p' :: recs) = (m'.free p' >>= fun m => m.freeList recs) := rfl
      rw [this] at h1
      cases hf : m'.free p' with
      | error e => rw [hf] at h1; cases h1
      | ok z => rw [hf, ok_bind] at h1; rw [ok_bind, h1, ok_bind]
    exact ⟨none, m2, hseq, .inl ⟨rfl, h2, fun hg => (r3 hg).2 rfl⟩⟩
  | some q =>
    obtain ⟨b', cnt'⟩ := q
    obtain ⟨q1, q2⟩ := r4 b' cnt' rfl
    subst q1
    have hk2 : Kept m0 m' ([p'] ++ recs) := r2
    obtain ⟨m2, h1, h2, h3⟩ := hk2.part hm
    dsimp only
    rw [h1, ok_bind]
    exact ⟨_, m2, rfl, .inr ⟨b', p', rfl, h2, fun hg => granting_of_eq h3 (r3 hg).1, q2⟩⟩

/-- The record loop only adds records. -/
theorem varLoop_extends (d : Buf 252) (size fuel : Nat) : ∀ (i : Nat) (v w : VarData) (c : Int), varLoop d size fuel i v = .ok (c, w) → v.records <+: w.records ∧ w.header = v.header := by
  induction fuel with
  | zero =>
    intro i v w c h
    unfold varLoop at h
    split at h
    · cases h
    · injection h with h; injection h with _ h; subst h; exact ⟨List.prefix_refl _, rfl⟩
  | succ fuel ih =>
    intro i v w c h
    unfold varLoop at h
    by_cases hi : i < size
    · rw [if_pos hi] at h
      dsimp only at h
      obtain ⟨b, hb, h⟩ := bind_eq_ok.mp h
      by_cases hf : b = 0x2F
      · rw [if_pos hf] at h; exact ih _ _ _ _ h
      · rw [if_neg hf] at h
        obtain ⟨q, hq, h⟩ := bind_eq_ok.mp h
        cases q with
        | none => injection h with h; injection h with _ h; subst h; exact ⟨List.prefix_refl _, rfl⟩
        | some q =>
          obtain ⟨r, i'⟩ := q
          exact ⟨(List.prefix_append _ _).trans (ih _ _ _ _ h).1, (ih _ _ _ _ h).2⟩
    · rw [if_neg hi] at h
      injection h with h; injection h with _ h; subst h; exact ⟨List.prefix_refl _, rfl⟩

/-- The record loop with memory delivers the first records. -/
theorem varLoopOwned_prefix (d : Buf 252) (size fuel : Nat) : ∀ (i : Nat) (v full : VarData) (recs : List Nat) (m : Mem), MemOk m → varLoop d size fuel i v = .ok (0, full) →
    ∃ c w recs' m', varLoopOwned d size fuel i v recs m = .ok (c, w, recs', m') ∧ c ≠ -1 ∧ w.records <+: full.records := by
  induction fuel with
  | zero =>
    intro i v full recs m hm h
    unfold varLoopOwned
    unfold varLoop at h
    by_cases hi : i < size
    · rw [if_pos hi] at h; cases h
    · rw [if_neg hi] at h ⊢
      injection h with h; injection h with _ h; subst h
      exact ⟨0, _, _, _, rfl, by decide, List.prefix_refl _⟩
  | succ fuel ih =>
    intro i v full recs m hm h
    have hext := (varLoop_extends d size _ _ _ _ _ h).1
    unfold varLoopOwned
    unfold varLoop at h
    by_cases hi : i < size
    · rw [if_pos hi] at h ⊢
      dsimp only at h ⊢
      obtain ⟨b, hb, h⟩ := bind_eq_ok.mp h
      rw [hb]
      dsimp only
      by_cases hf : b = 0x2F
      · rw [if_pos hf] at h ⊢; exact ih _ _ _ _ _ hm h
      · rw [if_neg hf] at h ⊢
        obtain ⟨q, hq, h⟩ := bind_eq_ok.mp h
        rcases alloc_cases m [] with ⟨m1, e, g, hg⟩ | ⟨m1, e, g, hg⟩
        · rw [e]
          dsimp only
          rw [hq]
          cases q with
          | none => injection h with h; injection h with h _; cases h
          | some q =>
            obtain ⟨r, i'⟩ := q
            exact ih _ _ _ _ _ (g.ok hm) h
        · rw [e]
          exact ⟨-2, _, _, _, rfl, by decide, hext⟩
    · rw [if_neg hi] at h ⊢
      injection h with h; injection h with _ h; subst h
      exact ⟨0, _, _, _, rfl, by decide, List.prefix_refl _⟩

theorem Reads.kind {f : Frame} {h : VarHeader} {rs : List Record} (hr : Reads f h rs) :
    f.control &&& MASK_DIR = MASK_DIR_S2M ∧ f.ci = 0x72 ∧ 12 ≤ f.dataSize := by
  obtain ⟨hs, x, hp, ht, hh, hrs⟩ := hr
  obtain ⟨c1, c2, c3⟩ := frameDataParse_cases f FrameData.new
  have hdir : f.control &&& 0x40 = 0 := by
    by_cases h : f.control &&& 0x40 = 0
    · exact h
    · rw [c1 h] at hp; simp at hp
  have hci : f.ci = 0x72 := by
    by_cases h : f.ci = 0x72
    · exact h
    · exfalso
      by_cases h3 : f.ci = 0x73
      · rw [c2 hdir h3] at hp
        split at hp
        · simp at hp
        · obtain ⟨q, _, hq⟩ := bind_eq_ok.mp hp
          injection hq with hq
          injection hq with _ hq
          rw [← hq] at ht
          cases ht
      · by_cases h0 : f.ci = 0x70
        · rw [frameDataParse_error f _ hdir h0] at hp
          injection hp with hp
          injection hp with _ hp
          rw [← hp] at ht
          cases ht
        · rw [C35_refuse f FrameData.new (.inr (by simp [h, h3, h0]))] at hp
          simp at hp
  refine ⟨hdir, hci, ?_⟩
  rw [c3 hdir hci] at hp
  by_cases h0 : f.dataSize = 0
  · rw [if_pos h0] at hp; simp at hp
  · rw [if_neg h0] at hp
    obtain ⟨⟨c, v⟩, hv, hq⟩ := bind_eq_ok.mp hp
    injection hq with hq
    injection hq with hq1 hq2
    dsimp only at hq1
    subst hq1
    exact (variableParse_sound f _ v hs hv).1

/-- Parsing a telegram when memory may run out: the first records. -/
theorem Reads.owned {f : Frame} {h : VarHeader} {rs : List Record} (hr : Reads f h rs) (y : FrameData) (old : List Nat) {m : Mem} (hm : MemOk m) :
    ∃ c w recs m', frameDataParseOwned f y old m = .ok (c, w, recs, m') ∧ c ≠ -1 ∧ w.type = DATA_VARIABLE ∧ w.var.header = h ∧ w.var.records <+: rs ∧
      recs.length = w.var.records.length ∧ Kept m m' recs ∧ (Granting m → Granting m' ∧ w.var.records = rs) := by
  obtain ⟨hk1, hk2, hk3⟩ := hr.kind
  obtain ⟨v, hv1, hv2, hparse, hvp⟩ := hr.any y
  obtain ⟨r1, r2⟩ := frameDataParseOwned_runs f y old m hm
  obtain ⟨hd, e1, _, e2⟩ := variableParse_eq f VarData.zero hk3
  rw [e2] at hvp
  obtain ⟨c, w, recs, m', ho, hc, hpre⟩ := varLoopOwned_prefix f.data f.dataSize f.dataSize 12 { header := hd, records := [], nrecords := 0, more := 0 } v [] m hm hvp
  obtain ⟨_, _, _, _, _, hw, _⟩ := (varLoopOwned_runs f.data f.dataSize f.dataSize 12 { header := hd, records := [], nrecords := 0, more := 0 } [] m hm).2 _ _ _ _ ho
  have hfull : frameDataParseOwned f y old m = .ok (c, { y with type := DATA_VARIABLE, var := w }, recs, m') := by
    unfold frameDataParseOwned variableParseOwned
    rw [if_pos ⟨hk1, hk2, by omega⟩, if_neg (by omega), e1, ok_bind]
    dsimp only at ho ⊢
    rw [ho, ok_bind]
  obtain ⟨news, g, hg, hrecs, hsame⟩ := r2 _ _ _ _ hfull
  have hh : hd = h := by rw [← hv1]; exact (varLoop_extends _ _ _ _ _ _ _ hvp).2.symm
  rcases hrecs with ⟨_, _, hno⟩ | ⟨hp, _, _, _, hlen⟩
  · exact absurd ⟨hk1, hk2, hk3⟩ hno
  refine ⟨c, _, recs, m', hfull, hc, rfl, by rw [← hh]; exact hw, by rw [← hv2]; exact hpre, hlen.symm, ⟨news, g, hp.symm⟩, fun hgr => ⟨hg hgr, ?_⟩⟩
  rcases hsame with ⟨_, hng, _⟩ | hsame
  · exact absurd hgr hng
  · rw [hparse] at hsame
    injection hsame with hsame
    injection hsame with _ hsame
    rw [← hsame]
    exact hv2

theorem prefix_map {α β : Type} (f : α → β) (l : List α) (l' : List β) (h : l' <+: l.map f) : ∃ k, k <+: l ∧ l' = k.map f := by
  refine ⟨l.take l'.length, List.take_prefix _ _, ?_⟩
  rw [List.map_take]
  exact List.prefix_iff_eq_take.mp h

theorem Spec.Kept.store {m0 m : Mem} {p : Nat} (hm : MemOk m0) (h : Kept m0 m [p]) (c : List Byte) : Grown m0 (m.store p c) [(p, c)] := by
  obtain ⟨news, g, hp⟩ := h
  have hl : news.map (·.1) = [p] := List.perm_singleton.mp hp
  obtain ⟨s, rfl⟩ : ∃ s, news = [(p, s)] := by
    match news, hl with
    | [(a, s)], hl => exact ⟨s, by simp at hl; rw [hl]⟩
  have := grown_store hm g (p := p) (by simp) c
  simpa using this

theorem total_prefix {tss' tss : List (List Item)} (h : Pointwise (fun a b => a <+: b) tss' tss) : total tss' ≤ total tss ∧ tss'.length = tss.length := by
  induction h with
  | nil => exact ⟨Nat.le_refl _, rfl⟩
  | cons h1 _ ih =>
    have := h1.length_le
    simp [total] at *
    omega

theorem chainXmlOwned_runs (junk : Nat → Nat → Byte) {m0 : Mem} (hm : MemOk m0) (ts : List Telegram) (tss : List (List Item)) (hp : Pointwise ItemsOf ts tss)
    (hr : ∀ its ∈ tss, ∀ it ∈ its, Ready it) (x : FrameData) (recs : List Nat) (cnt k : Nat) (hc : cnt + total tss < 2 ^ 31)
    (hk : k + tss.length < 2 ^ 31) (b : XBuf) (t : List Byte) (hb : Roomy b t) (p : Nat) (m : Mem) (hp0 : Kept m0 m [p]) :
    ∃ res m', chainXmlOwned junk ts x recs cnt k b p m = .ok (res, m') ∧
      ((res = none ∧ Grown m0 m' [] ∧ ¬ Granting m) ∨
       ∃ q c tss', res = some q ∧ Grown m0 m' [(q, c)] ∧ Pointwise (fun a b => a <+: b) tss' tss ∧ (Granting m → tss' = tss ∧ Granting m') ∧
         t ++ (telegramGroups cnt k tss').flatMap Group.render ++ cs! "</MBusData>\n" ++ [0] <+: c) := by
  induction hp generalizing x recs cnt k b t p m with
  | nil =>
    unfold chainXmlOwned
    obtain ⟨b', h1, h2⟩ := close_runs hb
    rw [h1, ok_bind]
    exact ⟨_, _, rfl, .inr ⟨p, _, [], rfl, hp0.store hm _, .nil, fun hg => ⟨rfl, hg⟩, by simpa [telegramGroups] using h2⟩⟩
  | @cons tel its ts tss hi _ ih =>
    obtain ⟨f, stamp⟩ := tel
    obtain ⟨⟨h, hreads⟩, hst⟩ := hi
    dsimp only at hst hreads
    obtain ⟨c, w, recs', m1, o1, o2, o3, o4, o5, o6, o7, o8⟩ := hreads.owned x recs (hp0.ok hm)
    obtain ⟨its', hpre, hits⟩ := prefix_map _ _ _ o5
    have hlen := hpre.length_le
    have hc1 : cnt + its'.length + total tss < 2 ^ 31 := by simp [total] at hc ⊢; omega
    have hk1 : k + 1 + tss.length < 2 ^ 31 := by simp at hk; omega
    unfold chainXmlOwned
    rw [o1, ok_bind]
    dsimp only
    rw [if_neg o2]
    obtain ⟨g, m2, q1, q2⟩ := printListOwned_runs junk (some k) (fun j h => by injection h with h; omega) hm its'
      (fun it hit => hr its (List.mem_cons_self ..) it (hpre.subset hit)) stamp (fun it hit => hst it (hpre.subset hit)) w hits recs' (by rw [o6, hits]; simp) cnt
      (by omega) b t hb p m1 ((hp0.trans o7).perm (List.perm_append_singleton _ _))
    have q1' : printListOwned junk (k : Int) stamp w recs' (cnt : Int) b p m1 = .ok (g, m2) := q1
    rw [q1', ok_bind]
    rcases q2 with ⟨rfl, g2, hng⟩ | ⟨b', p', rfl, k2, hg2, hb'⟩
    · exact ⟨none, m2, rfl, .inl ⟨rfl, g2, fun hg => hng (o8 hg).1⟩⟩
    · dsimp only
      have : ((k : Int) + 1) = ((k + 1 : Nat) : Int) := by simp
      rw [this, int32_nat _ (by omega), ok_bind]
      obtain ⟨res, m3, s1, s2⟩ := ih (fun i hi => hr i (List.mem_cons_of_mem _ hi)) w recs' (cnt + its'.length) (k + 1) hc1 hk1 b' _ hb' p' m2 k2
      refine ⟨res, m3, s1, ?_⟩
      rcases s2 with ⟨u1, u2, u3⟩ | ⟨q, c', tss', u1, u2, u3, u4, u5⟩
      · exact .inl ⟨u1, u2, fun hg => u3 (hg2 (o8 hg).1)⟩
      · refine .inr ⟨q, c', its' :: tss', u1, u2, .cons hpre u3, fun hg => ?_, ?_⟩
        · obtain ⟨v1, v2⟩ := u4 (hg2 (o8 hg).1)
          refine ⟨?_, v2⟩
          rw [v1]
          congr 1
          have := (o8 hg).2
          rw [hits] at this
          have hl : its'.length = its.length := by simpa using congrArg List.length this
          exact hpre.eq_of_length hl
        · simpa [telegramGroups] using u5

/-- The sequence of telegrams, after the first was parsed. -/
theorem sequenceXmlOwned_runs (junk0 : Nat → Byte) (junk : Nat → Nat → Byte) (w : FrameData) (recs : List Nat) (stamp : Option (List Byte)) (ts : List Telegram) (its : List Item)
    (tss : List (List Item)) (p : List Byte) (hp : productName w.var.header = .ok p) (hits : w.var.records = its.map (·.1)) (hl' : recs.length = its.length)
    (hst : ∀ it ∈ its, it.2.2 = stamp) (hi : Pointwise ItemsOf ts tss) (hr : ∀ i ∈ its :: tss, ∀ it ∈ i, Ready it)
    (hc : total (its :: tss) < 2 ^ 31) (hk : (its :: tss).length < 2 ^ 31) {m m1 : Mem} (hm : MemOk m) (o7 : Kept m m1 recs) :
    Runs (sequenceXmlOwned junk0 junk w recs stamp ts m1) (fun r => (r.1 = none ∧ Grown m r.2 [] ∧ ¬ Granting m1) ∨
      ∃ q c tss', r.1 = some q ∧ Grown m r.2 [(q, c)] ∧ Pointwise (fun a b => a <+: b) tss' tss ∧ (Granting m1 → tss' = tss ∧ Granting r.2) ∧
        document (slaveGroup w.var.header p (mediumLookup w.var.header.medium) :: readoutGroups (its :: tss')) ++ [0] <+: c) := by
  have hc1 : its.length + total tss < 2 ^ 31 := by simp [total] at hc ⊢; omega
  have hk1 : 1 + tss.length < 2 ^ 31 := by simp at hk; omega
  unfold sequenceXmlOwned
  rcases alloc_cases m1 (malloc (scratch junk0 3) 8192) with ⟨m2, e, g, hg⟩ | ⟨m2, e, g, hg⟩
  · rw [e]
    dsimp only
    refine start_runs _ _ w.var.header p hp _ _ fun b hb => ?_
    have hkp : Kept m m2 (m1.next :: recs) := o7.trans ⟨_, g, .refl _⟩
    have hready : ∀ it ∈ its, Ready it := hr its (List.mem_cons_self ..)
    cases hi with
    | nil =>
      have e : (if List.isEmpty ([] : List Telegram) = true then (-1 : Int) else 0) = frameArg none := rfl
      rw [e]
      obtain ⟨gr, m3, q1, q2⟩ := printListOwned_runs junk none (by simp) hm its hready stamp hst w hits recs hl' 0 (by omega) b _ hb m1.next m2 hkp
      have q1' : printListOwned junk (frameArg none) stamp w recs 0 b m1.next m2 = .ok (gr, m3) := q1
      rw [q1', ok_bind]
      rcases q2 with ⟨rfl, g2, hng⟩ | ⟨b', p', rfl, k2, hg2, hb'⟩
      · exact .ok (.inl ⟨rfl, g2, fun hgr => hng (hg hgr)⟩)
      · dsimp only
        have e2 : int32 (frameArg none + 1) = .ok 0 := rfl
        rw [e2, ok_bind]
        unfold chainXmlOwned
        obtain ⟨b'', h1, h2⟩ := close_runs hb'
        rw [h1, ok_bind]
        refine .ok (.inr ⟨p', _, [], rfl, k2.store hm _, .nil, fun hgr => ⟨rfl, hg2 (hg hgr)⟩, ?_⟩)
        simpa [document, readoutGroups] using h2
    | @cons t2 i2 ts2 tss2 hi2 hi3 =>
      have e : (if List.isEmpty (t2 :: ts2) = true then (-1 : Int) else 0) = frameArg (some 0) := rfl
      rw [e]
      obtain ⟨gr, m3, q1, q2⟩ := printListOwned_runs junk (some 0) (by simp) hm its hready stamp hst w hits recs hl' 0 (by omega) b _ hb m1.next m2 hkp
      have q1' : printListOwned junk (frameArg (some 0)) stamp w recs 0 b m1.next m2 = .ok (gr, m3) := q1
      rw [q1', ok_bind]
      rcases q2 with ⟨rfl, g2, hng⟩ | ⟨b', p', rfl, k2, hg2, hb'⟩
      · exact .ok (.inl ⟨rfl, g2, fun hgr => hng (hg hgr)⟩)
      · dsimp only
        have e2 : int32 (frameArg (some 0) + 1) = .ok ((1 : Nat) : Int) := rfl
        rw [e2, ok_bind]
        obtain ⟨res, m4, s1, s2⟩ := chainXmlOwned_runs junk hm (t2 :: ts2) (i2 :: tss2) (.cons hi2 hi3) (fun i hi => hr i (List.mem_cons_of_mem _ hi)) w recs
          (0 + its.length) 1 (by omega) hk1 b' _ hb' p' m3 k2
        refine ⟨_, s1, ?_⟩
        rcases s2 with ⟨u1, u2, u3⟩ | ⟨q, c', tss', u1, u2, u3, u4, u5⟩
        · exact .inl ⟨u1, u2, fun hgr => u3 (hg2 (hg hgr))⟩
        · refine .inr ⟨q, c', tss', u1, u2, u3, fun hgr => u4 (hg2 (hg hgr)), ?_⟩
          cases u3 with
          | cons _ _ => simpa [document, readoutGroups, telegramGroups] using u5
  · rw [e]
    dsimp only
    obtain ⟨m3, f1, f2, _⟩ := Spec.Kept.free hm (by simpa using o7.trans ⟨_, g, .refl _⟩)
    rw [f1, ok_bind]
    exact .ok (.inl ⟨rfl, f2, hg⟩)

/-- The document of a chain of variable-data telegrams. -/
theorem frameXmlOwned_runs (junk0 : Nat → Byte) (junk : Nat → Nat → Byte) (t : Telegram) (ts : List Telegram) (its : List Item)
    (tss : List (List Item)) (h : VarHeader) (p : List Byte) (hp : productName h = .ok p) (hread : Reads t.1 h (its.map (·.1)))
    (hst : ∀ it ∈ its, it.2.2 = t.2) (hi : Pointwise ItemsOf ts tss) (hr : ∀ i ∈ its :: tss, ∀ it ∈ i, Ready it)
    (hc : total (its :: tss) < 2 ^ 31) (hk : (its :: tss).length < 2 ^ 31) {m : Mem} (hm : MemOk m) :
    Runs (frameXmlOwned junk0 junk t ts m) (Excerpt m (fun l => document (slaveGroup h p (mediumLookup h.medium) :: readoutGroups l)) (its :: tss)) := by
  obtain ⟨c, w, recs, m1, o1, o2, o3, o4, o5, o6, o7, o8⟩ := hread.owned FrameData.new [] hm
  obtain ⟨its', hpre, hits⟩ := prefix_map _ _ _ o5
  have hlen := hpre.length_le
  have hwhole : Granting m → its' = its := by
    intro hg
    have := (o8 hg).2
    rw [hits] at this
    exact hpre.eq_of_length (by simpa using congrArg List.length this)
  unfold frameXmlOwned
  rw [o1, ok_bind]
  dsimp only
  rw [if_neg o2, if_neg (by rw [o3]; decide), if_neg (by rw [o3]; decide), if_pos o3]
  subst o4
  obtain ⟨r, s1, s2⟩ := sequenceXmlOwned_runs junk0 junk w recs t.2 ts its' tss p hp hits (by rw [o6, hits]; simp) (fun it hit => hst it (hpre.subset hit)) hi
    (fun i hi it hit => by
      rcases List.mem_cons.mp hi with rfl | hi
      · exact hr its (List.mem_cons_self ..) it (hpre.subset hit)
      · exact hr i (List.mem_cons_of_mem _ hi) it hit) (by simp [total] at hc ⊢; omega) (by simpa using hk) hm o7
  refine ⟨r, s1, ?_⟩
  rcases s2 with ⟨u1, u2, u3⟩ | ⟨q, c', tss', u1, u2, u3, u4, u5⟩
  · exact .inl ⟨u1, u2, fun hgr => u3 (o8 hgr).1⟩
  · refine .inr ⟨q, c', its' :: tss', u1, u2, .cons hpre u3, fun hgr => ?_, u5⟩
    obtain ⟨v1, v2⟩ := u4 (o8 hgr).1
    exact ⟨by rw [v1, hwhole hgr], v2⟩

/-- With `n` allocations granted and the next one refused the record loop stops after `n` records. -/
theorem varLoopOwned_cut (d : Buf 252) (size fuel : Nat) : ∀ (i : Nat) (v full : VarData) (recs : List Nat) (m : Mem) (n : Nat) (rest : List Bool),
    varLoop d size fuel i v = .ok (0, full) → v.records.length + n < full.records.length → m.answers = List.replicate n true ++ false :: rest →
    ∃ w recs' m', varLoopOwned d size fuel i v recs m = .ok (-2, w, recs', m') ∧ w.records = full.records.take (v.records.length + n) ∧ m'.answers = rest := by
  induction fuel with
  | zero =>
    intro i v full recs m n rest h hn ha
    unfold varLoop at h
    split at h
    · cases h
    · injection h with h; injection h with _ h; subst h; omega
  | succ fuel ih =>
    intro i v full recs m n rest h hn ha
    have hext := (varLoop_extends d size _ _ _ _ _ h).1
    unfold varLoopOwned
    unfold varLoop at h
    by_cases hi : i < size
    · rw [if_pos hi] at h ⊢
      dsimp only at h ⊢
      obtain ⟨b, hb, h⟩ := bind_eq_ok.mp h
      rw [hb]
      dsimp only
      by_cases hf : b = 0x2F
      · rw [if_pos hf] at h ⊢; exact ih _ _ _ _ _ _ _ h hn ha
      · rw [if_neg hf] at h ⊢
        obtain ⟨q, hq, h⟩ := bind_eq_ok.mp h
        cases n with
        | zero =>
          have e : m.alloc [] = (none, { m with answers := rest }) := by unfold Mem.alloc; rw [ha]; rfl
          rw [e]
          exact ⟨v, recs, _, rfl, by rw [Nat.add_zero]; exact List.prefix_iff_eq_take.mp hext, rfl⟩
        | succ n =>
          have e : m.alloc [] = (some m.next, ⟨m.next + 1, (m.next, []) :: m.live, List.replicate n true ++ false :: rest⟩) := by unfold Mem.alloc; rw [ha]; rfl
          rw [e]
          dsimp only
          rw [hq]
          cases q with
          | none => injection h with h; injection h with h _; cases h
          | some q =>
            obtain ⟨r, i'⟩ := q
            obtain ⟨w, recs', m', w1, w2, w3⟩ := ih _ _ _ (recs ++ [m.next]) ⟨m.next + 1, (m.next, []) :: m.live, List.replicate n true ++ false :: rest⟩ n rest h (by simp; omega) rfl
            exact ⟨w, recs', m', w1, by rw [w2]; congr 1; simp; omega, w3⟩
    · rw [if_neg hi] at h
      injection h with h; injection h with _ h; subst h; omega

/-- A record that cannot be allocated ends the document's record list: the records before it are printed, the call succeeds. -/
theorem frameXmlOwned_cut (junk0 : Nat → Byte) (junk : Nat → Nat → Byte) (t : Telegram) (ts : List Telegram) (its : List Item)
    (tss : List (List Item)) (h : VarHeader) (p : List Byte) (hp : productName h = .ok p) (hread : Reads t.1 h (its.map (·.1)))
    (hst : ∀ it ∈ its, it.2.2 = t.2) (hi : Pointwise ItemsOf ts tss) (hr : ∀ i ∈ its :: tss, ∀ it ∈ i, Ready it)
    (hc : total (its :: tss) < 2 ^ 31) (hk : (its :: tss).length < 2 ^ 31) {m : Mem} (hm : MemOk m) (n : Nat) (hn : n < its.length)
    (ha : m.answers = List.replicate n true ++ [false]) :
    ∃ q m' c, frameXmlOwned junk0 junk t ts m = .ok (some q, m') ∧ Grown m m' [(q, c)] ∧
      document (slaveGroup h p (mediumLookup h.medium) :: readoutGroups (its.take n :: tss)) ++ [0] <+: c := by
  obtain ⟨hk1, hk2, hk3⟩ := hread.kind
  obtain ⟨v, hv1, hv2, _, hvp⟩ := hread.any FrameData.new
  obtain ⟨hd, e1, _, e2⟩ := variableParse_eq t.1 VarData.zero hk3
  rw [e2] at hvp
  obtain ⟨w, recs, m1, ho, hw, ham⟩ := varLoopOwned_cut t.1.data t.1.dataSize t.1.dataSize 12 { header := hd, records := [], nrecords := 0, more := 0 } v [] m n [] hvp
    (by rw [hv2]; simp; exact hn) ha
  have hfull : frameDataParseOwned t.1 FrameData.new [] m = .ok (-2, { FrameData.new with type := DATA_VARIABLE, var := w }, recs, m1) := by
    unfold frameDataParseOwned variableParseOwned
    rw [if_pos ⟨hk1, hk2, by omega⟩, if_neg (by omega), e1, ok_bind]
    dsimp only at ho ⊢
    have ho' : varLoopOwned t.1.data t.1.dataSize t.1.dataSize 12 { FrameData.new.var with nrecords := 0, more := 0, header := hd, records := [] } [] m = .ok (-2, w, recs, m1) := ho
    rw [ho', ok_bind]
  obtain ⟨c, w', recs', m1', o1, o2, o3, o4, o5, o6, o7, o8⟩ := hread.owned FrameData.new [] hm
  rw [hfull] at o1
  injection o1 with o1
  injection o1 with z1 o1
  injection o1 with z2 o1
  injection o1 with z3 z4
  subst z2; subst z3; subst z4
  dsimp only at o4 o5 o6
  have hits : w.records = (its.take n).map (·.1) := by
    rw [hw, hv2, List.map_take]
    simp
  have hgr : Granting m1 := by intro b hb; rw [ham] at hb; cases hb
  unfold frameXmlOwned
  rw [hfull, ok_bind]
  dsimp only
  rw [if_neg (by decide), if_neg (by decide), if_neg (by decide), if_pos rfl]
  subst o4
  obtain ⟨r, s1, s2⟩ := sequenceXmlOwned_runs junk0 junk { FrameData.new with type := DATA_VARIABLE, var := w } recs t.2 ts (its.take n) tss p hp hits
    (by rw [o6, hits]; simp) (fun it hit => hst it (List.mem_of_mem_take hit)) hi
    (fun i hi it hit => by
      rcases List.mem_cons.mp hi with rfl | hi
      · exact hr its (List.mem_cons_self ..) it (List.mem_of_mem_take hit)
      · exact hr i (List.mem_cons_of_mem _ hi) it hit) (by simp [total] at hc ⊢; omega) (by simpa using hk) hm o7
  obtain ⟨r1, r2⟩ := r
  rcases s2 with ⟨u1, u2, u3⟩ | ⟨q, c', tss', u1, u2, u3, u4, u5⟩
  · exact absurd hgr u3
  · obtain ⟨v1, v2⟩ := u4 hgr
    dsimp only at u1
    subst u1; subst v1
    exact ⟨q, r2, c', s1, u2, u5⟩

/-- The document of a parsed variable-data telegram; the record list stays. -/
theorem variableXmlOwned_runs (junk0 : Nat → Byte) (junk : Nat → Nat → Byte) (h : VarHeader) (p : List Byte) (hp : productName h = .ok p)
    (its : List Item) (hr : ∀ it ∈ its, Ready it) (hc : its.length < 2 ^ 31) {m0 m : Mem} (hm : MemOk m0) (recs : List Nat) (hl : recs.length = its.length) (hk : Kept m0 m recs) :
    Runs (variableXmlOwned junk0 junk h (its.map fun it => (it.1, it.2.2)) recs m)
      (fun r => (r.1 = none ∧ Kept m0 r.2 recs ∧ ¬ Granting m) ∨
        ∃ q, r.1 = some q ∧ Kept m0 r.2 (q :: recs) ∧ (Granting m → Granting r.2) ∧ ∃ c, r.2.load q = .ok c ∧
          document (slaveGroup h p (mediumLookup h.medium) :: recordGroups none 0 its) ++ [0] <+: c) := by
  unfold variableXmlOwned
  rcases alloc_cases m (malloc (scratch junk0 3) 8192) with ⟨m2, e, g, hg⟩ | ⟨m2, e, g, hg⟩
  · rw [e]
    dsimp only
    refine start_runs _ _ h p hp _ _ fun b hb => ?_
    have hkp : Kept m0 m2 (m.next :: recs) := hk.trans ⟨_, g, .refl _⟩
    obtain ⟨gr, p', m3, r1, r2, r3, r4⟩ := recordsXmlOwned_runs junk none (by simp) hm recs its hr recs (fun _ h => h) hl 0 (by omega) b _ hb m.next m2 hkp
    have r1' : recordsXmlOwned junk (-1) (recs.zip (its.map fun it => (it.1, it.2.2))) 0 b m.next m2 = .ok (gr, p', m3) := r1
    rw [r1', ok_bind]
    dsimp only
    cases gr with
    | none =>
      dsimp only
      obtain ⟨m4, h1, h2, h3⟩ := Spec.Kept.part hm (rest := recs) (as := [p']) (r2.perm (List.perm_append_singleton _ _).symm)
      have : m3.free p' = .ok m4 := by
        have hf : m3.freeList [p'] = (m3.free p' >>= fun m => .ok m) := rfl
        rw [hf] at h1
        cases hx : m3.free p' with
        | error e => rw [hx] at h1; cases h1
        | ok z => rw [hx, ok_bind] at h1; exact h1
      rw [this, ok_bind]
      exact .ok (.inl ⟨rfl, h2, fun hgr => (r3 (hg hgr)).2 rfl⟩)
    | some q =>
      obtain ⟨b', cnt'⟩ := q
      obtain ⟨q1, q2⟩ := r4 b' cnt' rfl
      dsimp only
      obtain ⟨b'', h1, h2⟩ := close_runs q2
      rw [h1, ok_bind]
      obtain ⟨news, gg, pp⟩ := r2
      have hmem : p' ∈ news.map (·.1) := pp.mem_iff.mpr (List.mem_cons_self ..)
      have gs := grown_store hm gg hmem b''.mem
      refine .ok (.inr ⟨p', rfl, ⟨_, gs, ?_⟩, fun hgr => (r3 (hg hgr)).1, b''.mem, ?_, by simpa [document] using h2⟩)
      · rw [List.map_map]
        refine (List.Perm.of_eq (List.map_congr_left fun x _ => ?_)).trans pp
        simp only [Function.comp]
        split
        · rename_i hx; exact hx.symm
        · rfl
      · refine load_live (gs.ok hm) ?_
        rw [gs.live]
        refine List.mem_append_left _ ?_
        obtain ⟨y, hy, hyp⟩ := List.mem_map.mp hmem
        exact List.mem_map.mpr ⟨y, hy, by rw [if_pos hyp]⟩
  · rw [e]
    exact .ok (.inl ⟨rfl, by simpa using hk.trans ⟨_, g, .refl _⟩, hg⟩)

end Mbus
