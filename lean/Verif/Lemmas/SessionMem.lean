import Verif.Model.SessionMem
import Verif.Lemmas.Owned
import Verif.Lemmas.ScanDefined
import Verif.Lemmas.Xml
import Verif.Lemmas.RecFree
import Verif.Lemmas.SrStep
import Verif.Spec.SessionMem
/- memory of the session functions -/
namespace Mbus
open Spec

/-- `y` does what `x` does, with the heap `m`: its faults are in `E`, the blocks it leaves behind are in `L`, and when no allocation
fails it behaves exactly like `x`. -/
structure Frugal {α : Type} (E : Fault → Prop) (L : Nat × List Byte → Prop) (m : Mem) (x : C α) (y : C (α × Mem)) : Prop where
  fault : ∀ e, y = .error e → E e
  mem : ∀ a m', y = .ok (a, m') → ∃ news, Grown m m' news ∧ ∀ z ∈ news, L z
  same : Granting m → (∀ a m', y = .ok (a, m') → x = .ok a ∧ Granting m') ∧ ∀ e, y = .error e → x = .error e

theorem Frugal.bind {α β : Type} {E : Fault → Prop} {L : Nat × List Byte → Prop} {m : Mem} {x : C α} {y : C (α × Mem)} {kx : α → C β} {ky : α × Mem → C (β × Mem)}
    (hm : MemOk m) (h : Frugal E L m x y)
    (hk : ∀ a m', y = .ok (a, m') → MemOk m' → (Granting m → x = .ok a ∧ Granting m') → Frugal E L m' (kx a) (ky (a, m'))) :
    Frugal E L m (x >>= kx) (y >>= ky) := by
  cases hy : y with
  | error e =>
    refine ⟨?_, ?_, ?_⟩
    · intro e' h'; cases h'; exact h.fault _ hy
    · intro a m' h'; cases h'
    · intro hg
      have hx := (h.same hg).2 e hy
      rw [hx]
      refine ⟨?_, ?_⟩
      · intro a m' h'; cases h'
      · intro e' h'; cases h'; rfl
  | ok p =>
    obtain ⟨a, m1⟩ := p
    obtain ⟨news, g, hl⟩ := h.mem a m1 hy
    have hk' := hk a m1 hy (g.ok hm) (fun hg => (h.same hg).1 a m1 hy)
    refine ⟨hk'.fault, ?_, ?_⟩
    · intro b m' hb
      obtain ⟨news', g', hl'⟩ := hk'.mem b m' hb
      refine ⟨news' ++ news, g.trans g', ?_⟩
      intro z hz
      rcases List.mem_append.mp hz with hz | hz
      · exact hl' z hz
      · exact hl z hz
    · intro hg
      obtain ⟨hx, hg'⟩ := (h.same hg).1 a m1 hy
      rw [hx]
      exact hk'.same hg'

theorem Frugal.pure {α : Type} {E : Fault → Prop} {L : Nat × List Byte → Prop} (m : Mem) (a : α) : Frugal E L m (.ok a) (.ok (a, m)) := by
  refine ⟨fun e h => (by cases h), ?_, fun hg => ⟨?_, fun e h => (by cases h)⟩⟩
  · intro b m' h
    injection h with h
    injection h with h1 h2
    subst h2
    exact ⟨[], Grown.refl m, by simp⟩
  · intro b m' h
    injection h with h
    injection h with h1 h2
    subst h1; subst h2
    exact ⟨rfl, hg⟩

theorem Frugal.weaken {α : Type} {E : Fault → Prop} {L L' : Nat × List Byte → Prop} {m : Mem} {x : C α} {y : C (α × Mem)} (h : Frugal E L m x y)
    (hl : ∀ z, L z → L' z) : Frugal E L' m x y := by
  refine ⟨h.fault, ?_, h.same⟩
  intro a m' hy
  obtain ⟨news, g, h'⟩ := h.mem a m' hy
  exact ⟨news, g, fun z hz => hl z (h' z hz)⟩

/-- A step that uses no memory. -/
theorem Frugal.lift {α β : Type} {E : Fault → Prop} {L : Nat × List Byte → Prop} {m : Mem} {x : C α} {kx : α → C β} {ky : α → C (β × Mem)}
    (hx : Within E x) (hk : ∀ a, x = .ok a → Frugal E L m (kx a) (ky a)) : Frugal E L m (x >>= kx) (x >>= ky) := by
  cases h : x with
  | error e =>
    refine ⟨?_, ?_, ?_⟩
    · intro e' h'; cases h'; exact hx _ h
    · intro a m' h'; cases h'
    · intro _; exact ⟨fun a m' h' => (by cases h'), fun e' h' => (by cases h'; rfl)⟩
  | ok a => exact hk a h

/-- Nothing may be left behind. -/
def Nothing (_ : Nat × List Byte) : Prop := False

theorem withFrame_frugal {σ : Type} {E : Fault → Prop} (s : σ) {m : Mem} (hm : MemOk m) {act : C (Int × σ)} (ha : Within E act) :
    Frugal E Nothing m act (withFrame s m act) := by
  unfold withFrame
  rcases alloc_cases m [] with ⟨m1, h, g, hg⟩ | ⟨m1, h, g, hg⟩
  · rw [h]
    dsimp only
    cases hact : act with
    | error e =>
      refine ⟨?_, ?_, ?_⟩
      · intro e' h'; cases h'; exact ha _ hact
      · intro a m' h'; cases h'
      · intro _; exact ⟨fun a m' h' => (by cases h'), fun e' h' => (by cases h'; rfl)⟩
    | ok q =>
      obtain ⟨r, s'⟩ := q
      obtain ⟨m2, h2, g2, a2⟩ := free_grown hm g m.next (by simp)
      rw [ok_bind]
      dsimp only
      rw [h2, ok_bind]
      have g2' : Grown m m2 [] := by simpa using g2
      refine ⟨fun e h => (by cases h), ?_, fun hgr => ⟨?_, fun e h => (by cases h)⟩⟩
      · intro a m' h'
        injection h' with h'
        injection h' with h1 h2
        subst h2
        exact ⟨[], g2', by simp⟩
      · intro a m' h'
        injection h' with h'
        injection h' with h1 h2
        subst h1; subst h2
        exact ⟨rfl, granting_of_eq a2 (hg hgr)⟩
  · rw [h]
    refine ⟨fun e h => (by cases h), ?_, fun hgr => absurd hgr hg⟩
    intro a m' h'
    injection h' with h'
    injection h' with h1 h2
    subst h2
    exact ⟨[], g, by simp⟩

theorem freeList_all (m : Mem) (as : List Nat) : m.freeList as = freeAll m as := by
  induction as generalizing m with
  | nil => rfl
  | cons a as ih =>
    show (m.free a >>= fun m => m.freeList as) = (m.free a >>= fun m => freeAll m as)
    rw [funext ih]

theorem freeList_rest {m0 m : Mem} {news} (hm : MemOk m0) (g : Grown m0 m news) (as : List Nat) (hp : as.Perm (news.map (·.1))) :
    ∃ m', m.freeList as = .ok m' ∧ Grown m0 m' [] ∧ m'.answers = m.answers := by
  obtain ⟨m', h1, h2, h3⟩ := freeAll_grown hm as g (hp.nodup_iff.mpr g.nodup) (fun a ha => hp.mem_iff.mp ha)
  refine ⟨m', by rw [freeList_all, h1], ?_, h3⟩
  have : (news.filter fun x => decide (x.1 ∉ as)) = [] := by
    rw [List.filter_eq_nil_iff]
    intro x hx
    have : x.1 ∈ as := hp.mem_iff.mpr (List.mem_map_of_mem (f := fun x : Nat × List Byte => x.1) hx)
    simp [this]
  rwa [this] at h2

theorem varLoopOwned_end (d : Buf 252) (size fuel : Nat) (v : VarData) (recs : List Nat) (m : Mem) : varLoopOwned d size fuel size v recs m = .ok (0, v, recs, m) := by
  unfold varLoopOwned
  rw [if_neg (Nat.lt_irrefl _)]

/-- The record that announces more telegrams is the last one. -/
theorem varRecord_more (d : Buf 252) (size i : Nat) (b : Byte) (hb : d.rd i = .ok b) (hm : b = 0x1F) (hi : i < size) {r : Record} {i' : Nat}
    (h : varRecord d size i = .ok (some (r, i'))) : i' = size := by
  unfold varRecord at h
  rw [hb, ok_bind] at h
  dsimp only at h
  rw [if_pos (.inr hm)] at h
  obtain ⟨x, _, h⟩ := bind_eq_ok.mp h
  injection h with h
  injection h with h
  injection h with h1 h2
  omega

/-- The record loop with memory. -/
theorem varLoopOwned_runs (d : Buf 252) (size fuel : Nat) : ∀ (i : Nat) (v : VarData) (recs : List Nat) (m : Mem), MemOk m →
    (∀ e, varLoopOwned d size fuel i v recs m = .error e → varLoop d size fuel i v = .error e) ∧
    ∀ c w recs' m', varLoopOwned d size fuel i v recs m = .ok (c, w, recs', m') →
      ∃ news added, Grown m m' news ∧ recs' = recs ++ added ∧ added.Perm (news.map (·.1)) ∧ w.header = v.header ∧ w.records.length = v.records.length + added.length ∧ (Granting m → Granting m') ∧
        ((c = -2 ∧ ¬ Granting m ∧ w.more = v.more) ∨ varLoop d size fuel i v = .ok (c, w)) := by
  induction fuel with
  | zero =>
    intro i v recs m hm
    unfold varLoopOwned varLoop
    by_cases hi : i < size
    · rw [if_pos hi, if_pos hi]
      exact ⟨fun e h => (by cases h; rfl), fun c w r m' h => (by cases h)⟩
    · rw [if_neg hi, if_neg hi]
      refine ⟨fun e h => (by cases h), fun c w r m' h => ?_⟩
      injection h with h
      injection h with h1 h
      injection h with h2 h
      injection h with h3 h
      subst h1; subst h2; subst h3; subst h
      exact ⟨[], [], Grown.refl m, by simp, .nil, rfl, rfl, id, .inr rfl⟩
  | succ fuel ih =>
    intro i v recs m hm
    unfold varLoopOwned varLoop
    by_cases hi : i < size
    · rw [if_pos hi, if_pos hi]
      dsimp only
      cases hb : d.rd i with
      | error e => exact ⟨fun e' h => (by cases h; rfl), fun c w r m' h => (by cases h)⟩
      | ok b' =>
        dsimp only
        rw [ok_bind]
        by_cases hf : b' = 0x2F
        · rw [if_pos hf, if_pos hf]
          exact ih (i + 1) v recs m hm
        · rw [if_neg hf, if_neg hf]
          rcases alloc_cases m [] with ⟨m1, h, g, hg⟩ | ⟨m1, h, g, hg⟩
          · rw [h]
            dsimp only
            cases hr : varRecord d size i with
            | error e => exact ⟨fun e' h => (by cases h; rfl), fun c w r m' h => (by cases h)⟩
            | ok q =>
              rw [ok_bind]
              cases q with
              | none =>
                dsimp only
                obtain ⟨m2, h2, g2, a2⟩ := free_grown hm g m.next (by simp)
                rw [h2, ok_bind]
                refine ⟨fun e h => (by cases h), fun c w r m' h => ?_⟩
                injection h with h
                injection h with h1 h
                injection h with h3 h
                injection h with h4 h
                subst h1; subst h3; subst h4; subst h
                exact ⟨[], [], by simpa using g2, by simp, .nil, rfl, rfl, fun hgr => granting_of_eq a2 (hg hgr), .inr rfl⟩
              | some q =>
                obtain ⟨r, i'⟩ := q
                dsimp only
                obtain ⟨h1, h2⟩ := ih i' { v with records := v.records ++ [r], nrecords := v.nrecords + 1, more := if b' = 0x1F then 1 else v.more }
                  (recs ++ [m.next]) m1 (g.ok hm)
                refine ⟨h1, fun c w recs' m' hr' => ?_⟩
                obtain ⟨news, added, a1, a2, a3, a4, alen, a5, a6⟩ := h2 c w recs' m' hr'
                refine ⟨news ++ [(m.next, [])], m.next :: added, g.trans a1, by rw [a2]; simp, ?_, a4, by rw [alen]; simp; omega, fun hgr => a5 (hg hgr), ?_⟩
                · rw [List.map_append]
                  exact (List.Perm.cons _ a3).trans (List.perm_append_singleton _ _).symm
                · rcases a6 with ⟨a, b, e⟩ | a
                  · refine .inl ⟨a, fun hgr => b (hg hgr), ?_⟩
                    rw [e]
                    dsimp only
                    by_cases hmore : b' = 0x1F
                    · exfalso
                      have := varRecord_more d size i b' hb hmore hi hr
                      subst this
                      rw [varLoopOwned_end] at hr'
                      injection hr' with hr'
                      injection hr' with hc
                      rw [a] at hc
                      cases hc
                    · rw [if_neg hmore]
                  · exact .inr a
          · rw [h]
            refine ⟨fun e h => (by cases h), fun c w r m' h => ?_⟩
            injection h with h
            injection h with h1 h
            injection h with h2 h
            injection h with h3 h
            subst h1; subst h2; subst h3; subst h
            exact ⟨[], [], g, by simp, .nil, rfl, rfl, fun hgr => absurd hgr hg, .inl ⟨rfl, hg, rfl⟩⟩
    · rw [if_neg hi, if_neg hi]
      refine ⟨fun e h => (by cases h), fun c w r m' h => ?_⟩
      injection h with h
      injection h with h1 h
      injection h with h2 h
      injection h with h3 h
      subst h1; subst h2; subst h3; subst h
      exact ⟨[], [], Grown.refl m, by simp, .nil, rfl, rfl, id, .inr rfl⟩

theorem rsp_dir (f : Frame) (x : FrameData) (h : f.control &&& MASK_DIR = MASK_DIR_S2M ∧ f.ci = 0x72 ∧ f.dataSize ≠ 0) : frameDataParse f x =
    (variableParse f x.var >>= fun q => .ok (q.1, { x with type := DATA_VARIABLE, var := q.2 })) := by
  unfold frameDataParse
  rw [if_pos h.1, if_neg (by rw [h.2.1]; decide), if_neg (by rw [h.2.1]; decide), if_pos h.2.1, if_neg h.2.2]

/-- `mbus_frame_data_parse` with memory: the record list afterwards is the old one or consists of new blocks. -/
theorem frameDataParseOwned_runs (f : Frame) (x : FrameData) (recs : List Nat) (m : Mem) (hm : MemOk m) :
    (∀ e, frameDataParseOwned f x recs m = .error e → frameDataParse f x = .error e) ∧
    ∀ c w recs' m', frameDataParseOwned f x recs m = .ok (c, w, recs', m') →
      ∃ news, Grown m m' news ∧ (Granting m → Granting m') ∧
        ((news = [] ∧ recs' = recs ∧ ¬ (f.control &&& MASK_DIR = MASK_DIR_S2M ∧ f.ci = 0x72 ∧ 12 ≤ f.dataSize)) ∨
          (recs'.Perm (news.map (·.1)) ∧ f.control &&& MASK_DIR = MASK_DIR_S2M ∧ f.ci = 0x72 ∧ 12 ≤ f.dataSize ∧ w.var.records.length = recs'.length)) ∧
        ((c = -2 ∧ ¬ Granting m ∧ w.type = DATA_VARIABLE ∧ w.var.more = 0 ∧ f.control &&& MASK_DIR = MASK_DIR_S2M ∧ f.ci = 0x72 ∧ 12 ≤ f.dataSize) ∨ frameDataParse f x = .ok (c, w)) := by
  unfold frameDataParseOwned
  by_cases h : f.control &&& MASK_DIR = MASK_DIR_S2M ∧ f.ci = 0x72 ∧ f.dataSize ≠ 0
  · rw [if_pos h, rsp_dir f x h]
    unfold variableParseOwned variableParse
    dsimp only
    by_cases hs : f.dataSize < 12
    · rw [if_pos hs, if_pos hs, ok_bind, ok_bind]
      refine ⟨fun e h => (by cases h), fun c w r m' h' => ?_⟩
      injection h' with h'
      injection h' with h1 h'
      injection h' with h2 h'
      injection h' with h3 h'
      subst h1; subst h2; subst h3; subst h'
      exact ⟨[], Grown.refl m, id, .inl ⟨rfl, rfl, fun hc => by omega⟩, .inr rfl⟩
    · rw [if_neg hs, if_neg hs]
      obtain ⟨hd, hh, _⟩ := varHeader_eq f.data
      rw [hh, ok_bind, ok_bind]
      obtain ⟨r1, r2⟩ := varLoopOwned_runs f.data f.dataSize f.dataSize 12 { x.var with nrecords := 0, more := 0, header := hd, records := [] } [] m hm
      cases ho : varLoopOwned f.data f.dataSize f.dataSize 12 { x.var with nrecords := 0, more := 0, header := hd, records := [] } [] m with
      | error e =>
        refine ⟨fun e' h' => ?_, fun c w r m' h' => (by cases h')⟩
        cases h'
        rw [r1 e ho]
        rfl
      | ok q =>
        obtain ⟨c0, w0, recs0, m0⟩ := q
        obtain ⟨news, added, a1, a2, a3, a4, alen, a5, a6⟩ := r2 c0 w0 recs0 m0 ho
        rw [ok_bind]
        refine ⟨fun e' h' => (by cases h'), fun c w r m' h' => ?_⟩
        injection h' with h'
        injection h' with h1 h'
        injection h' with h2 h'
        injection h' with h3 h'
        subst h1; subst h2; subst h3; subst h'
        refine ⟨news, a1, a5, .inr ⟨by rw [a2, List.nil_append]; exact a3, h.1, h.2.1, by omega, by rw [a2, List.nil_append]; simpa using alen⟩, ?_⟩
        rcases a6 with ⟨b1, b2, b3⟩ | b
        · exact .inl ⟨b1, b2, rfl, b3, h.1, h.2.1, by omega⟩
        · exact .inr (by rw [b, ok_bind])
  · rw [if_neg h]
    cases hp : frameDataParse f x with
    | error e => exact ⟨fun e' h' => (by cases h'; rfl), fun c w r m' h' => (by cases h')⟩
    | ok q =>
      obtain ⟨r, y⟩ := q
      rw [ok_bind]
      refine ⟨fun e' h' => (by cases h'), fun c w r m' h' => ?_⟩
      injection h' with h'
      injection h' with h1 h'
      injection h' with h2 h'
      injection h' with h3 h'
      subst h1; subst h2; subst h3; subst h'
      exact ⟨[], Grown.refl m, id, .inl ⟨rfl, rfl, fun hc => h ⟨hc.1, hc.2.1, by omega⟩⟩, .inr rfl⟩

theorem secondaryText_ok (x : FrameData) : ∃ t, secondaryText x = .ok t := by
  unfold secondaryText
  rw [(bcdDecodeHex4 x.var.header.idBcd).1, ok_bind]
  have hl := x.var.header.manufacturer.2
  have h0 : ∃ b, x.var.header.manufacturer.rd 0 = .ok b := ⟨_, by unfold Buf.rd; exact rd_ok (by rw [hl]; decide)⟩
  have h1 : ∃ b, x.var.header.manufacturer.rd 1 = .ok b := ⟨_, by unfold Buf.rd; exact rd_ok (by rw [hl]; decide)⟩
  obtain ⟨b0, e0⟩ := h0
  obtain ⟨b1, e1⟩ := h1
  rw [e0, ok_bind, e1, ok_bind]
  exact ⟨_, rfl⟩

theorem getSecondaryAddress_alt (f : Frame) : getSecondaryAddress f = if f.ci ≠ 0x72 then .ok none else
    (frameDataParse f FrameData.new >>= fun q => if q.1 = -1 then .ok none else secondaryText q.2 >>= fun t => .ok (some t)) := by
  unfold getSecondaryAddress secondaryText
  split
  · rfl
  · cases frameDataParse f FrameData.new with
    | error e => rfl
    | ok q =>
      obtain ⟨r, x⟩ := q
      rw [ok_bind, ok_bind]
      dsimp only
      by_cases hr : r = -1
      · rw [if_pos hr, if_pos hr]
      · rw [if_neg hr, if_neg hr]
        cases bcdDecodeHex x.var.header.idBcd.bytes 4 with
        | error e => rfl
        | ok a =>
          cases x.var.header.manufacturer.rd 0 with
          | error e => rfl
          | ok b => cases x.var.header.manufacturer.rd 1 <;> rfl

theorem address_frugal {E : Fault → Prop} (f : Frame) {m : Mem} (hm : MemOk m) (hE : Within E (getSecondaryAddress f)) :
    Frugal E Nothing m (getSecondaryAddress f) (getSecondaryAddressOwned f m) := by
  rw [getSecondaryAddress_alt] at hE ⊢
  unfold getSecondaryAddressOwned
  rcases alloc_cases m [] with ⟨m1, h, g, hg⟩ | ⟨m1, h, g, hg⟩
  · rw [h]
    dsimp only
    by_cases hci : f.ci ≠ 0x72
    · rw [if_pos hci, if_pos hci]
      obtain ⟨m2, h2, g2, a2⟩ := free_grown hm g m.next (by simp)
      rw [h2, ok_bind]
      refine ⟨fun e h => (by cases h), ?_, fun hgr => ⟨?_, fun e h => (by cases h)⟩⟩
      · intro a m' h'
        injection h' with h'
        injection h' with h1 h2
        subst h2
        exact ⟨[], by simpa using g2, by simp⟩
      · intro a m' h'
        injection h' with h'
        injection h' with h1 h2
        subst h1; subst h2
        exact ⟨rfl, granting_of_eq a2 (hg hgr)⟩
    · rw [if_neg hci, if_neg hci]
      rw [if_neg hci] at hE
      unfold readAddressOwned
      obtain ⟨r1, r2⟩ := frameDataParseOwned_runs f FrameData.new [] m1 (g.ok hm)
      cases ho : frameDataParseOwned f FrameData.new [] m1 with
      | error e =>
        have hp := r1 e ho
        rw [hp] at hE ⊢
        refine ⟨?_, ?_, ?_⟩
        · intro e' h'; cases h'; exact hE e rfl
        · intro a m' h'; cases h'
        · intro _; exact ⟨fun a m' h' => (by cases h'), fun e' h' => (by cases h'; rfl)⟩
      | ok q =>
        obtain ⟨c, w, recs, m2⟩ := q
        obtain ⟨news, g2, hg2, hrecs, hsame⟩ := r2 c w recs m2 ho
        have hperm : (recs ++ [m.next]).Perm ((news ++ [(m.next, ([] : List Byte))]).map (·.1)) := by
          rw [List.map_append]
          refine List.Perm.append ?_ (.refl _)
          rcases hrecs with ⟨h1, h2, _⟩ | ⟨h1, _⟩
          · rw [h1, h2]; exact .nil
          · exact h1
        obtain ⟨m3, h3, g3, a3⟩ := freeList_rest hm (g.trans g2) _ hperm
        rw [ok_bind]
        dsimp only
        by_cases hc : c = -1
        · rw [if_pos hc, h3, ok_bind]
          refine ⟨fun e h => (by cases h), ?_, fun hgr => ⟨?_, fun e h => (by cases h)⟩⟩
          · intro a m' h'
            injection h' with h'
            injection h' with h1 h2
            subst h2
            exact ⟨[], g3, by simp⟩
          · intro a m' h'
            injection h' with h'
            injection h' with h1 h2
            subst h1; subst h2
            refine ⟨?_, granting_of_eq a3 (hg2 (hg hgr))⟩
            rcases hsame with ⟨_, b, _⟩ | b
            · exact absurd (hg hgr) b
            · rw [b, ok_bind]
              dsimp only
              rw [if_pos hc]
        · rw [if_neg hc]
          obtain ⟨t, ht⟩ := secondaryText_ok w
          rw [ht, ok_bind, h3, ok_bind]
          refine ⟨fun e h => (by cases h), ?_, fun hgr => ⟨?_, fun e h => (by cases h)⟩⟩
          · intro a m' h'
            injection h' with h'
            injection h' with h1 h2
            subst h2
            exact ⟨[], g3, by simp⟩
          · intro a m' h'
            injection h' with h'
            injection h' with h1 h2
            subst h1; subst h2
            refine ⟨?_, granting_of_eq a3 (hg2 (hg hgr))⟩
            rcases hsame with ⟨_, b, _⟩ | b
            · exact absurd (hg hgr) b
            · rw [b, ok_bind]
              dsimp only
              rw [if_neg hc, ht, ok_bind]
  · rw [h]
    refine ⟨fun e h => (by cases h), ?_, fun hgr => absurd hgr hg⟩
    intro a m' h'
    injection h' with h'
    injection h' with h1 h2
    subst h2
    exact ⟨[], g, by simp⟩

theorem selectSecondary_alt {σ : Type} (o : Ops σ) (s : σ) (mask : List Byte) : selectSecondary o s mask =
    if mask.length ≠ 16 then .ok (PROBE_ERROR, s) else sendSelect o s mask >>= fun q => if q.1 = -1 then .ok (PROBE_ERROR, q.2) else selectReply o q.2 := rfl

theorem within_of_bind {α β : Type} {E : Fault → Prop} {x : C α} {k : α → C β} (h : Within E (x >>= k)) {a : α} (ha : x = .ok a) : Within E (k a) := by
  rw [ha] at h
  exact h

theorem selectReply_within {σ : Type} {E : Fault → Prop} {o : Ops σ} (hb : Behaves E o) (s : σ) : Within E (selectReply o s) := by
  unfold selectReply
  refine within_bind (within_of_ok (hb.recv _)) (fun ⟨c, g, s2⟩ _ => ?_)
  dsimp only
  split
  · exact within_ok _
  split
  · exact within_bind (within_of_ok (hb.purge _)) (fun ⟨p, s3⟩ _ => within_ok _)
  split
  · refine within_bind (within_of_ok (hb.purge _)) (fun ⟨p, s3⟩ _ => ?_)
    dsimp only
    split <;> exact within_ok _
  · exact within_ok _

theorem select_frugal {σ : Type} {E : Fault → Prop} {o : Ops σ} (hb : Behaves E o) (s : σ) {m : Mem} (hm : MemOk m) (mask : List Byte) :
    Frugal E Nothing m (selectSecondary o s mask) (selectSecondaryOwned o s m mask) := by
  rw [selectSecondary_alt]
  unfold selectSecondaryOwned
  by_cases hl : mask.length ≠ 16
  · rw [if_pos hl, if_pos hl]
    exact Frugal.pure m _
  · rw [if_neg hl, if_neg hl]
    refine (withFrame_frugal s hm (within_of_ok (hb.select s mask))).bind hm (fun ⟨r, s1⟩ m1 _ hm1 _ => ?_)
    dsimp only
    by_cases hr : r = -1
    · rw [if_pos hr, if_pos hr]
      exact Frugal.pure m1 _
    · rw [if_neg hr, if_neg hr]
      have := Frugal.lift (m := m1) (L := Nothing) (selectReply_within hb s1) (kx := fun q => .ok q) (ky := fun q => .ok (q, m1)) (fun a _ => Frugal.pure m1 a)
      have e : (selectReply o s1 >>= fun q => Except.ok q) = selectReply o s1 := by cases selectReply o s1 <;> rfl
      rwa [e] at this

/-- what `probeSelected` does after the request -/
def probeReply {σ : Type} (o : Ops σ) (s : σ) : C (Int × Option (List Byte) × σ) := do
  let (ret, reply, s) ← o.recv s Frame.zero
  if ret = RECV_TIMEOUT then .ok (PROBE_NOTHING, none, s)
  else if ret = RECV_INVALID then do
    let (_, s) ← o.purge s
    .ok (PROBE_COLLISION, none, s)
  else do
    let (p, s) ← o.purge s
    if p ≠ 0 then .ok (PROBE_COLLISION, none, s)
    else if reply.type = TYPE_LONG then getSecondaryAddress reply >>= fun a => match a with
      | none => .ok (PROBE_NOTHING, none, s)
      | some addr => .ok (PROBE_SINGLE, some (addr.take 16), o.found s (addr.take 16) reply)
    else .ok (PROBE_NOTHING, none, s)

theorem probeSelected_alt {σ : Type} (o : Ops σ) (s : σ) : probeSelected o s =
    (sendRequest o s 0xFD >>= fun q => if q.1 = -1 then .ok (PROBE_ERROR, none, q.2) else probeReply o q.2) := rfl

theorem probeReply_frugal {σ : Type} {E : Fault → Prop} {o : Ops σ} (hb : Behaves E o) (s : σ) {m : Mem} (hm : MemOk m) :
    Frugal E Nothing m (probeReply o s) (probeReplyOwned o s m) := by
  unfold probeReply probeReplyOwned
  refine Frugal.lift (within_of_ok (hb.recv s)) (fun ⟨c, g, s2⟩ hrecv => ?_)
  dsimp only
  by_cases h1 : c = RECV_TIMEOUT
  · rw [if_pos h1, if_pos h1]
    exact Frugal.pure m _
  rw [if_neg h1, if_neg h1]
  by_cases h2 : c = RECV_INVALID
  · rw [if_pos h2, if_pos h2]
    exact Frugal.lift (within_of_ok (hb.purge _)) (fun ⟨p, s3⟩ _ => Frugal.pure m _)
  rw [if_neg h2, if_neg h2]
  refine Frugal.lift (within_of_ok (hb.purge _)) (fun ⟨p, s3⟩ _ => ?_)
  dsimp only
  by_cases h3 : p ≠ 0
  · rw [if_pos h3, if_pos h3]
    exact Frugal.pure m _
  rw [if_neg h3, if_neg h3]
  by_cases h4 : g.type = TYPE_LONG
  · rw [if_pos h4, if_pos h4]
    unfold probeAnswerOwned
    refine (address_frugal g hm (hb.address _ _ _ _ hrecv)).bind hm (fun a m1 _ _ _ => ?_)
    dsimp only
    cases a with
    | none => exact Frugal.pure m1 _
    | some t => exact Frugal.pure m1 _
  · rw [if_neg h4, if_neg h4]
    exact Frugal.pure m _

theorem request_frugal {σ : Type} {E : Fault → Prop} {o : Ops σ} (s : σ) {m : Mem} (hm : MemOk m) (a : Int) (hw : Within E (sendRequest o s a)) :
    Frugal E Nothing m (sendRequest o s a) (sendRequestOwned o s m a) := by
  unfold sendRequestOwned
  by_cases h : isPrimaryAddress a = false
  · rw [if_pos h]
    unfold sendRequest
    rw [if_pos h]
    exact Frugal.pure m _
  · rw [if_neg h]
    exact withFrame_frugal s hm hw

theorem probeLoop_frugal {σ : Type} {E : Fault → Prop} {o : Ops σ} (hb : Behaves E o) (mask : List Byte) (n : Nat) : ∀ (ret : Int) (s : σ) (m : Mem), MemOk m →
    Frugal E Nothing m (probeLoop o s mask ret n) (probeLoopOwned o mask n ret s m) := by
  induction n with
  | zero => intro ret s m _; exact Frugal.pure m _
  | succ n ih =>
    intro ret s m hm
    unfold probeLoop probeLoopOwned
    refine (select_frugal hb s hm mask).bind hm (fun ⟨r, s1⟩ m1 _ hm1 _ => ?_)
    dsimp only
    by_cases h1 : r = PROBE_SINGLE
    · rw [if_pos h1, if_pos h1, probeSelected_alt]
      unfold probeSelectedOwned
      refine (request_frugal s1 hm1 0xFD (within_of_ok (hb.request s1))).bind hm1 (fun ⟨r, s2⟩ m2 _ hm2 _ => ?_)
      dsimp only
      by_cases h2 : r = -1
      · rw [if_pos h2, if_pos h2]; exact Frugal.pure m2 _
      · rw [if_neg h2, if_neg h2]; exact probeReply_frugal hb s2 hm2
    rw [if_neg h1, if_neg h1]
    by_cases h2 : r = PROBE_ERROR ∨ r = PROBE_COLLISION
    · rw [if_pos h2, if_pos h2]; exact Frugal.pure m1 _
    · rw [if_neg h2, if_neg h2]; exact ih r s1 m1 hm1

theorem probe_frugal {σ : Type} {E : Fault → Prop} {o : Ops σ} (hb : Behaves E o) (st : Settings) (s : σ) {m : Mem} (hm : MemOk m) (mask : List Byte) :
    Frugal E Nothing m (probeSecondary o st s mask) (probeSecondaryOwned o st s m mask) := by
  unfold probeSecondary probeSecondaryOwned
  by_cases hl : mask.length ≠ 16
  · rw [if_pos hl, if_pos hl]; exact Frugal.pure m _
  · rw [if_neg hl, if_neg hl]; exact probeLoop_frugal hb mask _ _ s m hm

/-- The run of a scan in which no probe can fail. -/
structure Clean {σ : Type} (o : Ops σ) (st : Settings) (P : List Byte → Prop) (m : Mem) : Prop where
  granting : Granting m
  probes : ∀ s mask q, P mask → probeSecondary o st s mask = .ok q → q.1 = PROBE_SINGLE ∨ q.1 = PROBE_COLLISION ∨ q.1 = PROBE_NOTHING

section
variable {σ : Type} {E : Fault → Prop} {o : Ops σ} (hb : Behaves E o) (st : Settings) (P : List Byte → Prop) (m0 : Mem)
include hb

theorem scanLoop_frugal (pos : Nat) (sub : σ → List Byte → C (Int × σ)) (subO : σ → Mem → List Byte → C ((Int × σ) × Mem))
    (hsub : ∀ s m mask, MemOk m → mask.length = 16 → P mask → (Granting m0 → Granting m) →
      Frugal E (fun z => MaskCopy z ∧ ¬ Clean o st P m0) m (sub s mask) (subO s m mask)) (ds : List Byte) :
    ∀ (mask : List Byte) (s : σ) (m : Mem), MemOk m → mask.length = 16 → (∀ d ∈ ds, P (mask.set pos d)) → (Granting m0 → Granting m) →
      Frugal E (fun z => MaskCopy z ∧ ¬ Clean o st P m0) m (scanLoop o st pos sub mask ds s) (scanLoopOwned o st pos subO mask ds s m) ∧
      ∀ s' m', scanLoopOwned o st pos subO mask ds s m = .ok ((-1, s'), m') → ¬ Clean o st P m0 := by
  induction ds with
  | nil =>
    intro mask s m hm hl hP hg
    exact ⟨Frugal.pure m _, fun s' m' h => by injection h with h; injection h with h1 h2; injection h1 with h3 h4; cases h3⟩
  | cons d ds ih =>
    intro mask s m hm hl hP hg
    have hl' : (mask.set pos d).length = 16 := by simp [hl]
    have hP' : ∀ e ∈ ds, P ((mask.set pos d).set pos e) := by
      intro e he
      rw [List.set_set]
      exact hP e (by simp [he])
    have hd : P (mask.set pos d) := hP d (by simp)
    have hp := probe_frugal hb st (o.progress s (mask.set pos d)) hm (mask.set pos d)
    have key : ∀ r a s1 m1, probeSecondaryOwned o st (o.progress s (mask.set pos d)) m (mask.set pos d) = .ok ((r, a, s1), m1) →
        ¬ (r = PROBE_SINGLE) → ¬ (r = PROBE_COLLISION) → ¬ (r = PROBE_NOTHING) → ¬ Clean o st P m0 := by
      intro r a s1 m1 h1 a1 a2 a3 hc
      obtain ⟨hx, _⟩ := (hp.same (hg hc.granting)).1 _ _ h1
      rcases hc.probes _ _ _ hd hx with h | h | h
      · exact a1 h
      · exact a2 h
      · exact a3 h
    constructor
    · unfold scanLoop scanLoopOwned
      dsimp only
      refine (hp.weaken (fun z hz => hz.elim)).bind hm (fun ⟨r, a, s1⟩ m1 h1 hm1 hs1 => ?_)
      dsimp only
      have hg1 : Granting m0 → Granting m1 := fun h => (hs1 (hg h)).2
      by_cases c1 : r = PROBE_SINGLE
      · rw [if_pos c1, if_pos c1]; exact (ih _ s1 m1 hm1 hl' hP' hg1).1
      rw [if_neg c1, if_neg c1]
      by_cases c2 : r = PROBE_COLLISION
      · rw [if_pos c2, if_pos c2]
        refine (hsub s1 m1 _ hm1 hl' hd hg1).bind hm1 (fun ⟨r2, s2⟩ m2 _ hm2 hs2 => ?_)
        exact (ih _ s2 m2 hm2 hl' hP' (fun h => (hs2 (hg1 h)).2)).1
      rw [if_neg c2, if_neg c2]
      by_cases c3 : r = PROBE_NOTHING
      · rw [if_pos c3, if_pos c3]; exact (ih _ s1 m1 hm1 hl' hP' hg1).1
      rw [if_neg c3, if_neg c3]
      exact Frugal.pure m1 _
    · intro s' m' h
      unfold scanLoopOwned at h
      obtain ⟨⟨⟨r, a, s1⟩, m1⟩, h1, h⟩ := bind_eq_ok.mp h
      dsimp only at h
      obtain ⟨news1, g1, _⟩ := hp.mem _ _ h1
      have hm1 := g1.ok hm
      have hg1 : Granting m0 → Granting m1 := fun hh => ((hp.same (hg hh)).1 _ _ h1).2
      by_cases c1 : r = PROBE_SINGLE
      · rw [if_pos c1] at h; exact (ih _ s1 m1 hm1 hl' hP' hg1).2 _ _ h
      rw [if_neg c1] at h
      by_cases c2 : r = PROBE_COLLISION
      · rw [if_pos c2] at h
        obtain ⟨⟨⟨r2, s2⟩, m2⟩, h2, h⟩ := bind_eq_ok.mp h
        dsimp only at h
        have hf := hsub s1 m1 _ hm1 hl' hd hg1
        obtain ⟨news2, g2, _⟩ := hf.mem _ _ h2
        exact (ih _ s2 m2 (g2.ok hm1) hl' hP' (fun hh => ((hf.same (hg1 hh)).1 _ _ h2).2)).2 _ _ h
      rw [if_neg c2] at h
      by_cases c3 : r = PROBE_NOTHING
      · rw [if_pos c3] at h; exact (ih _ s1 m1 hm1 hl' hP' hg1).2 _ _ h
      exact key r a s1 m1 h1 c1 c2 c3

omit hb in
/-- The end of the loop: the copy of the mask is released, or left behind after a failed probe. -/
theorem scanEnd_frugal {L : Nat × List Byte → Prop} {m m1 : Mem} (hm : MemOk m) {c : List Byte} (g : Grown m m1 [(m.next, c)])
    (hgr : Granting m → Granting m1) {x : C (Int × σ)} {y : C ((Int × σ) × Mem)} (hf : Frugal E L m1 x y)
    (hret : ∀ r s' m', y = .ok ((r, s'), m') → r = 0 ∨ (r = -1 ∧ L (m.next, c))) : Frugal E L m x (y >>= scanEnd m.next) := by
  cases hy : y with
  | error e =>
    refine ⟨?_, ?_, ?_⟩
    · intro e' h'; cases h'; exact hf.fault _ hy
    · intro a m' h'; cases h'
    · intro hg
      refine ⟨fun a m' h' => (by cases h'), fun e' h' => ?_⟩
      cases h'
      exact (hf.same (hgr hg)).2 e hy
  | ok q =>
    obtain ⟨⟨r, s'⟩, m2⟩ := q
    obtain ⟨news, g2, hl⟩ := hf.mem _ _ hy
    rw [ok_bind]
    unfold scanEnd
    dsimp only
    rcases hret r s' m2 hy with hr | ⟨hr, hL⟩
    · subst hr
      rw [if_neg (by decide)]
      obtain ⟨m3, h3, g3, a3⟩ := free_grown hm (g.trans g2) m.next (by simp)
      rw [h3, ok_bind]
      refine ⟨fun e h => (by cases h), ?_, fun hg => ⟨?_, fun e h => (by cases h)⟩⟩
      · intro a m' h'
        injection h' with h'
        injection h' with h1 h2
        subst h2
        refine ⟨_, g3, ?_⟩
        intro z hz
        obtain ⟨hz1, hz2⟩ := List.mem_filter.mp hz
        rcases List.mem_append.mp hz1 with h | h
        · exact hl z h
        · rw [List.mem_singleton.mp h] at hz2
          simp at hz2
      · intro a m' h'
        injection h' with h'
        injection h' with h1 h2
        subst h1; subst h2
        obtain ⟨hx, hg'⟩ := (hf.same (hgr hg)).1 _ _ hy
        exact ⟨hx, granting_of_eq a3 hg'⟩
    · subst hr
      rw [if_pos rfl]
      refine ⟨fun e h => (by cases h), ?_, fun hg => ⟨?_, fun e h => (by cases h)⟩⟩
      · intro a m' h'
        injection h' with h'
        injection h' with h1 h2
        subst h2
        refine ⟨_, g.trans g2, ?_⟩
        intro z hz
        rcases List.mem_append.mp hz with h | h
        · exact hl z h
        · rw [List.mem_singleton.mp h]; exact hL
      · intro a m' h'
        injection h' with h'
        injection h' with h1 h2
        subst h1; subst h2
        exact (hf.same (hgr hg)).1 _ _ hy

omit hb in
theorem scanLoopOwned_ret (pos : Nat) (subO : σ → Mem → List Byte → C ((Int × σ) × Mem)) (ds : List Byte) : ∀ (mask : List Byte) (s : σ) (m : Mem) (r : Int) (s' : σ) (m' : Mem),
    scanLoopOwned o st pos subO mask ds s m = .ok ((r, s'), m') → r = 0 ∨ r = -1 := by
  induction ds with
  | nil =>
    intro mask s m r s' m' h
    injection h with h; injection h with h1 h2; injection h1 with h3 h4
    exact .inl h3.symm
  | cons d ds ih =>
    intro mask s m r s' m' h
    unfold scanLoopOwned at h
    obtain ⟨⟨⟨r1, a, s1⟩, m1⟩, h1, h⟩ := bind_eq_ok.mp h
    dsimp only at h
    split at h
    · exact ih _ _ _ _ _ _ h
    split at h
    · obtain ⟨⟨⟨r2, s2⟩, m2⟩, h2, h⟩ := bind_eq_ok.mp h
      exact ih _ _ _ _ _ _ h
    split at h
    · exact ih _ _ _ _ _ _ h
    · injection h with h; injection h with h1 h2; injection h1 with h3 h4
      exact .inr h3.symm

theorem scanAt_frugal (hP : ∀ mask pos d, P mask → d ∈ decimalDigits → P (mask.set pos d)) (n : Nat) : ∀ (s : σ) (m : Mem) (mask : List Byte), MemOk m → mask.length = 16 → P mask →
    (Granting m0 → Granting m) → Frugal E (fun z => MaskCopy z ∧ ¬ Clean o st P m0) m (scanAt o st n s mask) (scanAtOwned o st n s m mask) := by
  induction n with
  | zero => intro s m mask _ _ _ _; exact Frugal.pure m _
  | succ n ih =>
    intro s m mask hm hl hp hg
    unfold scanAt scanAtOwned
    rcases alloc_cases m (mask ++ [0]) with ⟨m1, h, g, hg1⟩ | ⟨m1, h, g, hng⟩
    · rw [h]
      dsimp only
      unfold scanBody
      have hi : 15 - n < mask.length := by omega
      rw [rd_ok hi, ok_bind, ok_bind]
      have hgr1 : Granting m0 → Granting m1 := fun hh => hg1 (hg hh)
      have hsub : ∀ s m mask, MemOk m → mask.length = 16 → P mask → (Granting m0 → Granting m) →
          Frugal E (fun z => MaskCopy z ∧ ¬ Clean o st P m0) m (scanAt o st n s mask) (scanAtOwned o st n s m mask) := ih
      have finish : ∀ ds, (∀ d ∈ ds, P (mask.set (15 - n) d)) → Frugal E (fun z => MaskCopy z ∧ ¬ Clean o st P m0) m
          (scanLoop o st (15 - n) (scanAt o st n) mask ds s) (scanLoopOwned o st (15 - n) (scanAtOwned o st n) mask ds s m1 >>= scanEnd m.next) := by
        intro ds hds
        obtain ⟨f1, f2⟩ := scanLoop_frugal hb st P m0 (15 - n) _ _ hsub ds mask s m1 (g.ok hm) hl hds hgr1
        refine scanEnd_frugal hm g hg1 f1 (fun r s' m' hy => ?_)
        rcases scanLoopOwned_ret st (15 - n) _ ds mask s m1 r s' m' hy with hr | hr
        · exact .inl hr
        · subst hr
          exact .inr ⟨rfl, ⟨mask, hl, rfl⟩, f2 _ _ hy⟩
      dsimp only
      split
      · exact finish _ (fun d hd => hP _ _ _ hp hd)
      split
      · have f := ih s m1 mask (g.ok hm) hl hp hgr1
        have e2 : (scanAtOwned o st n s m1 mask >>= fun q => q.2.free m.next >>= fun m => Except.ok ((0, q.1.2), m)) =
            ((scanAtOwned o st n s m1 mask >>= fun q => Except.ok ((0, q.1.2), q.2)) >>= scanEnd m.next) := by
          cases scanAtOwned o st n s m1 mask with
          | error e => rfl
          | ok q => rfl
        have f' : Frugal E (fun z => MaskCopy z ∧ ¬ Clean o st P m0) m1 (scanAt o st n s mask >>= fun q => Except.ok ((0 : Int), q.2))
            (scanAtOwned o st n s m1 mask >>= fun q => Except.ok (((0 : Int), q.1.2), q.2)) :=
          f.bind (g.ok hm) (fun q m2 _ _ _ => Frugal.pure m2 _)
        show Frugal E _ m _ (scanAtOwned o st n s m1 mask >>= fun q => q.2.free m.next >>= fun m => Except.ok ((0, q.1.2), m))
        rw [e2]
        refine scanEnd_frugal hm g hg1 f' (fun r s' m' hy => ?_)
        obtain ⟨q, _, hq⟩ := bind_eq_ok.mp hy
        injection hq with hq; injection hq with h1 h2; injection h1 with h3 h4
        exact .inl h3.symm
      · refine finish _ (fun d hd => ?_)
        rw [List.mem_singleton.mp hd]
        simpa using hp
    · rw [h]
      refine ⟨fun e h => (by cases h), ?_, fun hgr => absurd hgr hng⟩
      intro a m' h'
      injection h' with h'
      injection h' with h1 h2
      subst h2
      exact ⟨[], g, by simp⟩

theorem scan_frugal (hP : ∀ mask pos d, P mask → d ∈ decimalDigits → P (mask.set pos d)) (s : σ) (m : Mem) (hm : MemOk m) (pos : Int) (mask : List Byte) (hp : P mask) :
    Frugal E (fun z => MaskCopy z ∧ ¬ Clean o st P m) m (scanRange o st s pos mask) (scanRangeOwned o st s m pos mask) := by
  unfold scanRange scanRangeOwned
  by_cases h1 : mask.length ≠ 16
  · rw [if_pos h1, if_pos h1]; exact Frugal.pure m _
  rw [if_neg h1, if_neg h1]
  by_cases h2 : pos < 0 ∨ pos ≥ 16
  · rw [if_pos h2, if_pos h2]; exact Frugal.pure m _
  rw [if_neg h2, if_neg h2]
  exact scanAt_frugal hb st P m hP _ s m mask hm (by omega) hp id

end

/-! ### mbus_sendrecv_request -/

/-- Releasing the blocks `as` among `as ++ rest`. -/
theorem freeList_part {m0 m : Mem} {news} (hm : MemOk m0) (g : Grown m0 m news) (as rest : List Nat) (hp : (news.map (·.1)).Perm (as ++ rest)) :
    ∃ m' news', m.freeList as = .ok m' ∧ Grown m0 m' news' ∧ (news'.map (·.1)).Perm rest ∧ m'.answers = m.answers := by
  have hnd := hp.nodup_iff.mp g.nodup
  rw [List.nodup_append] at hnd
  obtain ⟨m', h1, h2, h3⟩ := freeAll_grown hm as g hnd.1 (fun a ha => hp.mem_iff.mpr (List.mem_append_left _ ha))
  refine ⟨m', _, by rw [freeList_all, h1], h2, ?_, h3⟩
  have e : ((news.filter fun x => decide (x.1 ∉ as)).map (·.1)) = (news.map (·.1)).filter fun a => decide (a ∉ as) := by
    rw [List.filter_map]; rfl
  rw [e]
  refine (hp.filter _).trans ?_
  rw [List.filter_append]
  have e1 : (as.filter fun a => decide (a ∉ as)) = [] := by
    rw [List.filter_eq_nil_iff]; intro a ha; simp [ha]
  have e2 : (rest.filter fun a => decide (a ∉ as)) = rest := by
    rw [List.filter_eq_self]
    intro a ha
    have : a ∉ as := fun h => hnd.2.2 a h a ha rfl
    simp [this]
  rw [e1, e2]
  exact .refl _

/-- The result of the request loop, compared with the loop without memory. -/
structure SrFacts {σ : Type} (m0 m : Mem) (x : C (SrOut σ)) (y : C (SrOwned σ × Mem)) : Prop where
  fault : ∀ e, y = .error e → ParserFault e
  kept : ∀ out m', y = .ok (out, m') → out.blocks.length + 1 = out.chain.length ∧ ∃ leaked, Kept m0 m' (out.blocks ++ leaked) ∧
    (leaked ≠ [] → out.code = 1 ∧ ∃ f z w, out.chain.getLast? = some f ∧ frameDataParse f z = .ok (-1, w))
  same : Granting m → (∀ out m', y = .ok (out, m') → Granting m' ∧ ∃ p, x = .ok ⟨out.code, out.chain, p, out.state⟩) ∧
    ∀ e, y = .error e → x = .error e

theorem sr_end {σ : Type} {m0 m m1 : Mem} (out : SrOwned σ) (hk : Kept m0 m out.blocks) (hl : out.blocks.length + 1 = out.chain.length)
    (hg : Granting m1 → Granting m) (p : RecPtr) : SrFacts m0 m1 (.ok ⟨out.code, out.chain, p, out.state⟩) (.ok (out, m)) := by
  refine ⟨fun e h => (by cases h), fun o' m' h => ?_, fun hgr => ⟨fun o' m' h => ?_, fun e h => (by cases h)⟩⟩
  · injection h with h
    injection h with h1 h2
    subst h1; subst h2
    exact ⟨hl, [], by simpa using hk, fun h => absurd rfl h⟩
  · injection h with h
    injection h with h1 h2
    subst h1; subst h2
    exact ⟨hg hgr, p, rfl⟩

theorem sr_error {σ : Type} {m0 m1 : Mem} {e : Fault} (he : ParserFault e) : SrFacts (σ := σ) m0 m1 (.error e) (.error e) :=
  ⟨fun e' h => (by cases h; exact he), fun o' m' h => (by cases h), fun _ => ⟨fun o' m' h => (by cases h), fun e' h => (by cases h; rfl)⟩⟩

theorem Spec.SrFacts.of {σ : Type} {m0 m m1 : Mem} {x : C (SrOut σ)} {y : C (SrOwned σ × Mem)} (h : SrFacts m0 m1 x y) (hg : Granting m → Granting m1) :
    SrFacts m0 m x y := ⟨h.fault, h.kept, fun hgr => h.same (hg hgr)⟩

/-- A successful parse of a telegram with variable data. -/
theorem parse_full (f : Frame) (x x' : FrameData) (hci : f.ci = 0x72) (h : frameDataParse f x = .ok (0, x')) :
    f.control &&& MASK_DIR = MASK_DIR_S2M ∧ f.ci = 0x72 ∧ 12 ≤ f.dataSize := by
  have hx := frameDataParse_cases f x
  by_cases hd : f.control &&& 0x40 = 0
  · rw [hx.2.2 hd hci] at h
    by_cases h0 : f.dataSize = 0
    · rw [if_pos h0] at h; cases h
    · rw [if_neg h0] at h
      by_cases h12 : f.dataSize < 12
      · rw [variableParse_short f _ h12] at h; cases h
      · exact ⟨hd, hci, by omega⟩
  · rw [hx.1 hd] at h; cases h

set_option linter.unusedVariables false in
theorem sr_owned {σ : Type} (o : Ops σ) (V : σ → Prop) (max mf : Int) (ho : Orderly o V mf) {m0 : Mem} (hm0 : MemOk m0) (s : σ) (req : Frame)
    (done : List Frame) (cur : Frame) (x : FrameData) (p : RecPtr) (recs blocks : List Nat) (retry count : Int) (m : Mem)
    (hk : Kept m0 m blocks) (hl : blocks.length = done.length)
    (hcount : 0 ≤ count) (hreq : req.type = 2) (hcur : cur.dataSize ≤ 252) (hp : (p = .null ∧ recs = []) ∨ (p ≠ .live ∧ V s)) :
    SrFacts m0 m (sendrecvLoop o max mf s req done cur x p retry count) (sendrecvLoopOwned o max mf s req done cur x recs blocks retry count m) := by
  rw [sendrecvLoop, sendrecvLoopOwned]
  have hend : ∀ (code : Int) (c : Frame) (rs : List Nat) (st : σ) (q : RecPtr), SrFacts m0 m (.ok ⟨code, done ++ [c], q, st⟩) (.ok (⟨code, done ++ [c], blocks, rs, st⟩, m)) :=
    fun code c rs st q => sr_end ⟨code, done ++ [c], blocks, rs, st⟩ hk (by simp [hl]) id q
  by_cases hr : retry > max
  · rw [dif_pos hr, dif_pos hr]
    exact hend _ _ _ _ _
  rw [dif_neg hr, dif_neg hr]
  obtain ⟨r, req', s1, h1, hreq', hv1⟩ := ho.send s req hreq
  rw [h1]
  simp only
  by_cases hm1 : r = -1
  · rw [if_pos hm1, if_pos hm1]
    exact hend _ _ _ _ _
  rw [if_neg hm1, if_neg hm1]
  obtain ⟨c, cur', s2, h2, hcur', hv2, hok2⟩ := ho.recv s1 cur hcur
  rw [h2]
  simp only
  by_cases hok : c = RECV_OK
  · rw [if_pos hok, if_pos hok]
    obtain ⟨pr, s3, h3, hv3⟩ := ho.purge s2
    rw [h3]
    simp only
    obtain ⟨news, g, hperm⟩ := hk
    obtain ⟨r1, r2⟩ := frameDataParseOwned_runs cur' x recs m (g.ok hm0)
    cases hpo : frameDataParseOwned cur' x recs m with
    | error e =>
      have hpz := r1 e hpo
      rw [hpz]
      exact sr_error (frameDataParse_fault cur' x hcur' e hpz)
    | ok q =>
      obtain ⟨pc, x', recs', m2⟩ := q
      obtain ⟨news2, g2, hg2, hrecs, hsame⟩ := r2 pc x' recs' m2 hpo
      dsimp only
      by_cases hpc : pc = -1
      · have hplain : frameDataParse cur' x = .ok (pc, x') := by
          rcases hsame with ⟨h, _⟩ | h
          · rw [h] at hpc; cases hpc
          · exact h
        rw [hplain]
        dsimp only
        rw [if_pos hpc, if_pos hpc]
        refine ⟨fun e h => (by cases h), fun o' m' h => ?_, fun hgr => ⟨fun o' m' h => ?_, fun e h => (by cases h)⟩⟩
        · injection h with h
          injection h with h1 h2
          subst h1; subst h2
          refine ⟨by simp [hl], news2.map (·.1), ⟨news2 ++ news, g.trans g2, ?_⟩, fun _ => ⟨rfl, cur', x, x', by simp, by rw [hplain, hpc]⟩⟩
          rw [List.map_append]
          exact List.perm_append_comm.trans (hperm.append_right _)
        · injection h with h
          injection h with h1 h2
          subst h1; subst h2
          exact ⟨hg2 hgr, _, rfl⟩
      rw [if_neg hpc]
      have hfull : cur'.ci = 0x72 → cur'.control &&& MASK_DIR = MASK_DIR_S2M ∧ cur'.ci = 0x72 ∧ 12 ≤ cur'.dataSize := by
        intro h72
        rcases hsame with ⟨_, _, _, _, h⟩ | h
        · exact h
        · have hpc0 : pc = 0 := by
            rcases frameDataParse_code _ _ _ _ h with h | h
            · exact h
            · exact absurd h hpc
          subst hpc0
          exact parse_full cur' x x' h72 h
      have hrecs' : recs'.Perm (news2.map (·.1)) ∧ (cur'.ci = 0x72 ∨ p = .null) := by
        rcases hrecs with ⟨a, b, hn⟩ | ⟨a, _, b, _⟩
        · have h72 : cur'.ci ≠ 0x72 := fun h => hn (hfull h)
          rcases hp with ⟨hp1, hp2⟩ | ⟨hp1, hp2⟩
          · rw [a, b, hp2]; exact ⟨.nil, .inr hp1⟩
          · exact absurd ((hok2 hok).1 (hv1 hp2)) h72
        · exact ⟨a, .inl b⟩
      have hpermAll : ((news2 ++ news).map (·.1)).Perm (recs' ++ blocks) := by
        rw [List.map_append]
        exact hrecs'.1.symm.append hperm
      rcases hsame with ⟨hc2, hng, hty, hmo, _⟩ | hplain
      · rw [dif_neg (fun h => h.2.1 hmo)]
        obtain ⟨m3, news3, hf, g3, hp3, ha3⟩ := freeList_part hm0 (g.trans g2) recs' blocks hpermAll
        rw [hf]
        refine ⟨fun e h => (by cases h), fun o' m' h => ?_, fun hgr => absurd hgr hng⟩
        injection h with h
        injection h with h1 h2
        subst h1; subst h2
        exact ⟨by simp [hl], [], ⟨news3, g3, by simpa using hp3⟩, fun h => absurd rfl h⟩
      · rw [hplain]
        dsimp only
        rw [if_neg hpc]
        have hpc0 : pc = 0 := by
          rcases frameDataParse_code _ _ _ _ hplain with h | h
          · exact h
          · exact absurd h hpc
        subst hpc0
        have hptr : ∃ p', (p.parse cur' x').free = .ok p' ∧ p' ≠ .live := by
          by_cases h72 : cur'.ci = 0x72
          · rw [parse_pointer p cur' x x' h72 hplain]
            split
            · exact ⟨.null, rfl, by simp⟩
            · exact ⟨.freed, rfl, by simp⟩
          · have hnull : p = .null := by
              rcases hrecs'.2 with h | h
              · exact absurd h h72
              · exact h
            have : p.parse cur' x' = p := by
              unfold RecPtr.parse
              rw [if_neg (fun h => h72 h.2.1)]
            rw [this, hnull]
            exact ⟨.null, rfl, by simp⟩
        obtain ⟨p', hf, hp'⟩ := hptr
        by_cases hmore : x'.type = DATA_VARIABLE ∧ x'.var.more ≠ 0 ∧ mf > 0 ∧ count + 1 < mf
        · rw [dif_pos hmore, dif_pos hmore]
          simp only [hf]
          have hM := (parse_more cur' x x' 0 hcur' hplain).1 hpc ⟨hmore.1, hmore.2.1⟩
          have hV : V s3 := hv3 ((hok2 hok).2 (by omega) hM)
          unfold nextFrame
          rcases alloc_cases m2 [] with ⟨m3, h, g3, hg3⟩ | ⟨m3, h, g3, hg3⟩
          · rw [h]
            dsimp only
            obtain ⟨m4, news4, hf4, g4, hp4, ha4⟩ := freeList_part hm0 ((g.trans g2).trans g3) recs' (blocks ++ [m2.next]) (by
              rw [List.map_append]
              refine (List.Perm.append_left _ hpermAll).trans ?_
              refine List.perm_append_comm.trans ?_
              rw [List.append_assoc]
              exact .refl _)
            rw [hf4]
            dsimp only
            refine Spec.SrFacts.of (sr_owned o V max mf ho hm0 s3 _ _ _ _ _ _ _ _ _ m4 ⟨news4, g4, hp4⟩ (by simp [hl]) (by omega) hreq' (by decide) (.inr ⟨hp', hV⟩))
              (fun hgr => granting_of_eq ha4 (hg3 (hg2 hgr)))
          · rw [h]
            dsimp only
            obtain ⟨m4, news4, hf4, g4, hp4, ha4⟩ := freeList_part hm0 ((g.trans g2).trans g3) recs' blocks (by simpa using hpermAll)
            rw [hf4]
            refine ⟨fun e h => (by cases h), fun o' m' h => ?_, fun hgr => absurd (hg2 hgr) hg3⟩
            injection h with h
            injection h with h1 h2
            subst h1; subst h2
            exact ⟨by simp [hl], [], ⟨news4, g4, by simpa using hp4⟩, fun h => absurd rfl h⟩
        · rw [dif_neg hmore, dif_neg hmore]
          simp only [hf]
          obtain ⟨m3, news3, hf3, g3, hp3, ha3⟩ := freeList_part hm0 (g.trans g2) recs' blocks hpermAll
          rw [hf3]
          exact sr_end ⟨0, done ++ [cur'], blocks, recs', s3⟩ ⟨news3, g3, hp3⟩ (by simp [hl]) (fun hgr => granting_of_eq ha3 (hg2 hgr)) p'
  · rw [if_neg hok, if_neg hok]
    have hp2 : (p = .null ∧ recs = []) ∨ (p ≠ .live ∧ V s2) := by
      rcases hp with h | ⟨h, hv⟩
      · exact .inl h
      · exact .inr ⟨h, hv2 (hv1 hv)⟩
    by_cases hto : c = RECV_TIMEOUT
    · rw [if_pos hto, if_pos hto]
      exact sr_owned o V max mf ho hm0 s2 _ _ _ _ _ _ _ _ _ _ hk hl hcount hreq' hcur' hp2
    · rw [if_neg hto, if_neg hto]
      by_cases hinv : c = RECV_INVALID
      · rw [if_pos hinv, if_pos hinv]
        obtain ⟨pr, s3, h3, hv3⟩ := ho.purge s2
        rw [h3]
        simp only
        refine sr_owned o V max mf ho hm0 s3 _ _ _ _ _ _ _ _ _ _ hk hl hcount hreq' hcur' ?_
        rcases hp2 with h | ⟨h, hv⟩
        · exact .inl h
        · exact .inr ⟨h, hv3 hv⟩
      · rw [if_neg hinv, if_neg hinv]
        exact hend _ _ _ _ _
termination_by ((mf - count).toNat, (max + 1 - retry).toNat)
decreasing_by
  · apply Prod.Lex.left; omega
  · apply Prod.Lex.right; omega
  · apply Prod.Lex.right; omega

/-- The whole request: the request frame is released. -/
theorem sendrecv_owned {σ : Type} (o : Ops σ) (V : σ → Prop) (mf : Int) (ho : Orderly o V mf) (st : Settings) (s : σ) {m : Mem} (hm : MemOk m)
    (a : Int) (reply : Frame) (hr : reply.dataSize ≤ 252) :
    SrFacts m m (sendrecvRequest o st s a reply mf) (sendrecvRequestOwned o st s m a reply mf) := by
  unfold sendrecvRequest sendrecvRequestOwned
  have h0 : Kept m m ([] : List Nat) := ⟨[], Grown.refl m, .nil⟩
  by_cases h : isPrimaryAddress a = false
  · rw [if_pos h, if_pos h]
    exact sr_end ⟨1, [reply], [], [], s⟩ h0 rfl id _
  · rw [if_neg h, if_neg h]
    rcases alloc_cases m [] with ⟨m1, h1, g1, hg1⟩ | ⟨m1, h1, g1, hg1⟩
    · rw [h1]
      dsimp only
      have hf := sr_owned o V st.maxDataRetry mf ho (g1.ok hm) s { frameNew TYPE_SHORT with
          control := MASK_REQ_UD2 ||| MASK_DIR_M2S ||| MASK_FCV ||| MASK_FCB, address := UInt8.ofNat a.toNat } [] reply FrameData.new .null [] [] 0 0 m1
        ⟨[], Grown.refl m1, .nil⟩ rfl (by omega) rfl hr (.inl ⟨rfl, rfl⟩)
      cases hy : sendrecvLoopOwned o st.maxDataRetry mf s { frameNew TYPE_SHORT with
          control := MASK_REQ_UD2 ||| MASK_DIR_M2S ||| MASK_FCV ||| MASK_FCB, address := UInt8.ofNat a.toNat } [] reply FrameData.new [] [] 0 0 m1 with
      | error e =>
        refine ⟨fun e' h' => (by cases h'; exact hf.fault _ hy), fun o' m' h' => (by cases h'), fun hgr => ⟨fun o' m' h' => (by cases h'), fun e' h' => ?_⟩⟩
        cases h'
        exact (hf.same (hg1 hgr)).2 e hy
      | ok q =>
        obtain ⟨out, m2⟩ := q
        obtain ⟨hlen, leaked, ⟨news, g2, hp2⟩, hleak⟩ := hf.kept _ _ hy
        obtain ⟨m3, news3, hf3, g3, hp3, ha3⟩ := freeList_part hm (g1.trans g2) [m.next] (out.blocks ++ leaked) (by
          rw [List.map_append]
          exact List.perm_append_comm.trans (List.Perm.append_left _ hp2))
        have hfree : m2.free m.next = .ok m3 := by
          cases hx : m2.free m.next with
          | error e =>
            have e1 : m2.freeList [m.next] = .error e := by
              show (m2.free m.next >>= fun m => m.freeList []) = _
              rw [hx]; rfl
            rw [e1] at hf3; cases hf3
          | ok y =>
            have e1 : m2.freeList [m.next] = .ok y := by
              show (m2.free m.next >>= fun m => m.freeList []) = _
              rw [hx]; rfl
            rw [e1] at hf3; exact hf3
        rw [ok_bind]
        dsimp only
        rw [hfree, ok_bind]
        refine ⟨fun e h => (by cases h), fun o' m' h => ?_, fun hgr => ⟨fun o' m' h => ?_, fun e h => (by cases h)⟩⟩
        · injection h with h
          injection h with h1 h2
          subst h1; subst h2
          exact ⟨hlen, leaked, ⟨news3, g3, hp3⟩, hleak⟩
        · injection h with h
          injection h with h1 h2
          subst h1; subst h2
          obtain ⟨a1, a2⟩ := (hf.same (hg1 hgr)).1 _ _ hy
          exact ⟨granting_of_eq ha3 a1, a2⟩
    · rw [h1]
      refine ⟨fun e h => (by cases h), fun o' m' h => ?_, fun hgr => absurd hgr hg1⟩
      injection h with h
      injection h with h1 h2
      subst h1; subst h2
      exact ⟨rfl, [], ⟨[], g1, by simp⟩, fun h => absurd rfl h⟩

/-- One exchange on a bus that answers with the telegram `reply`. -/
theorem exchange_step (k : Kind) (reply : Nat → Spec.Telegram) (purge : Int) (hpurge : purge ≠ PURGE_S2M) (sent : List (List Byte))
    (hl : (reply (sent.length + 1)).Legal) (hs : FromSlave (reply (sent.length + 1))) (a : Byte) (i : Nat) (req : Frame) (hreq : ReqFrame a i req) (cur : Frame) :
    ((busLink k (replyEnv reply)).ops purge).send ⟨[], sent⟩ req =
      .ok (0, fixed req, ⟨[.data (reply (sent.length + 1)).wire], sent ++ [(Telegram.short (ctl i) a).wire]⟩) ∧
    ∃ cur', Carries cur' (reply (sent.length + 1)) ∧
      ((busLink k (replyEnv reply)).ops purge).recv ⟨[.data (reply (sent.length + 1)).wire], sent ++ [(Telegram.short (ctl i) a).wire]⟩ cur =
        .ok (RECV_OK, cur', ⟨[], sent ++ [(Telegram.short (ctl i) a).wire]⟩) ∧
      ((busLink k (replyEnv reply)).ops purge).purge ⟨[], sent ++ [(Telegram.short (ctl i) a).wire]⟩ = .ok (0, ⟨[], sent ++ [(Telegram.short (ctl i) a).wire]⟩) := by
  have ho : IsOpen k (replyEnv reply) := .inr rfl
  refine ⟨?_, ?_⟩
  · show (busLink k (replyEnv reply)).send ⟨[], sent⟩ req = _
    rw [bus_send k (replyEnv reply) ho ⟨[], sent⟩ req _ (ctl_legal a _) (reqFrame_packs hreq),
      if_pos (show (replyEnv reply).wret _ _ = ((Telegram.short (ctl i) a).wire.length : Int) from rfl)]
    unfold busAfter
    have : (replyEnv reply).respond (sent ++ [(Telegram.short (ctl i) a).wire]) = [.data (reply (sent.length + 1)).wire] := by
      show [Ev.data (reply (sent ++ [(Telegram.short (ctl i) a).wire]).length).wire] = _
      simp
    simp only [List.nil_append, this]
  · obtain ⟨cur', hr1, hr2⟩ := recv_clean k (replyEnv reply) ho purge hpurge (sent ++ [(Telegram.short (ctl i) a).wire]) _ hl hs cur
    exact ⟨cur', hr2, hr1, purge_silent k (replyEnv reply) ho purge _⟩

end Mbus
