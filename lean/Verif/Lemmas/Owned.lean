import Verif.Spec.Owned
import Verif.Props.XmlNorm
/- Lemmas for C101, C102: the heap of normalised records. -/
namespace Mbus
open Spec

theorem Spec.Grown.refl (m : Mem) : Grown m m [] := ⟨rfl, by simp, by simp, by simp, Nat.le_refl _⟩

theorem Spec.Grown.ok {m m' : Mem} {news} (h : Grown m m' news) (hm : MemOk m) : MemOk m' := by
  obtain ⟨hl, ho, hn, hy, hx⟩ := h
  refine ⟨?_, ?_⟩
  · rw [hl, List.map_append, List.nodup_append]
    refine ⟨hn, hm.1, ?_⟩
    intro a ha b hb hab
    obtain ⟨x, hx1, rfl⟩ := List.mem_map.mp ha
    obtain ⟨y, hy1, rfl⟩ := List.mem_map.mp hb
    have h1 := ho x hx1
    have h2 := hm.2 y hy1
    omega
  · intro x hx'
    rw [hl] at hx'
    rcases List.mem_append.mp hx' with h | h
    · exact hy x h
    · have := hm.2 x h; omega

theorem Spec.Grown.trans {m m' m'' : Mem} {xs ys} (h : Grown m m' xs) (h' : Grown m' m'' ys) : Grown m m'' (ys ++ xs) := by
  obtain ⟨hl, ho, hn, hy, hx⟩ := h
  obtain ⟨hl', ho', hn', hy', hx'⟩ := h'
  refine ⟨by rw [hl', hl, List.append_assoc], ?_, ?_, ?_, by omega⟩
  · intro x h
    rcases List.mem_append.mp h with h | h
    · have := ho' x h; omega
    · exact ho x h
  · rw [List.map_append, List.nodup_append]
    refine ⟨hn', hn, ?_⟩
    intro a ha b hb hab
    obtain ⟨x, hx1, rfl⟩ := List.mem_map.mp ha
    obtain ⟨y, hy1, rfl⟩ := List.mem_map.mp hb
    have h1 := ho' x hx1
    have h2 := hy y hy1
    omega
  · intro x h
    rcases List.mem_append.mp h with h | h
    · exact hy' x h
    · have := hy x h; omega

/-- What an allocation can do. -/
theorem alloc_cases (m : Mem) (c : List Byte) :
    (∃ m', m.alloc c = (some m.next, m') ∧ Grown m m' [(m.next, c)] ∧ (Granting m → Granting m')) ∨
    (∃ m', m.alloc c = (none, m') ∧ Grown m m' [] ∧ ¬ Granting m) := by
  unfold Mem.alloc
  split
  · refine .inl ⟨_, rfl, ⟨rfl, by simp, by simp, by simp, by simp⟩, ?_⟩
    intro hg b hb
    exact hg b (List.mem_of_mem_tail hb)
  · rename_i h
    refine .inr ⟨_, rfl, ⟨rfl, by simp, by simp, by simp, Nat.le_refl _⟩, ?_⟩
    intro hg
    apply h
    cases ha : m.answers with
    | nil => rfl
    | cons b bs => exact hg b (by rw [ha]; simp)

theorem filter_all {α : Type} (p : α → Bool) (l : List α) (h : ∀ x ∈ l, p x = true) : l.filter p = l := List.filter_eq_self.mpr h

theorem free_grown {m0 m : Mem} {news} (hm : MemOk m0) (h : Grown m0 m news) (a : Nat) (ha : a ∈ news.map (·.1)) :
    ∃ m', m.free a = .ok m' ∧ Grown m0 m' (news.filter fun x => decide (x.1 ≠ a)) ∧ m'.answers = m.answers := by
  obtain ⟨hl, ho, hn, hy, hx⟩ := h
  unfold Mem.free
  rw [if_pos (by rw [hl, List.map_append]; exact List.mem_append_left _ ha)]
  refine ⟨_, rfl, ⟨?_, ?_, ?_, ?_, hx⟩, rfl⟩
  · show m.live.filter _ = _
    rw [hl, List.filter_append]
    congr 1
    apply filter_all
    intro x hx'
    obtain ⟨y, hy1, rfl⟩ := List.mem_map.mp ha
    have h1 := ho y hy1
    have h2 := hm.2 x hx'
    simp; omega
  · intro x h; exact ho x (List.mem_filter.mp h).1
  · exact (List.filter_sublist.map _).nodup hn
  · intro x h; exact hy x (List.mem_filter.mp h).1

/-- Releasing several blocks one after the other. -/
def freeAll (m : Mem) (as : List Nat) : C Mem := as.foldlM Mem.free m

theorem freeAll_grown {m0 : Mem} (hm : MemOk m0) (as : List Nat) : ∀ {m : Mem} {news}, Grown m0 m news → as.Nodup →
    (∀ a ∈ as, a ∈ news.map (·.1)) → ∃ m', freeAll m as = .ok m' ∧ Grown m0 m' (news.filter fun x => decide (x.1 ∉ as)) ∧ m'.answers = m.answers := by
  induction as with
  | nil =>
    intro m news h _ _
    refine ⟨m, rfl, ?_, rfl⟩
    rw [filter_all _ _ (by simp)]
    exact h
  | cons a as ih =>
    intro m news h hn ha
    obtain ⟨m1, h1, g1, e1⟩ := free_grown hm h a (ha a (by simp))
    obtain ⟨hna, hn'⟩ := List.nodup_cons.mp hn
    obtain ⟨m2, h2, g2, e2⟩ := ih g1 hn' (by
      intro b hb
      obtain ⟨x, hx, rfl⟩ := List.mem_map.mp (ha b (by simp [hb]))
      refine List.mem_map_of_mem (List.mem_filter.mpr ⟨hx, ?_⟩)
      simp only [decide_eq_true_eq]
      intro he
      rw [he] at hb
      exact hna hb)
    refine ⟨m2, ?_, ?_, e2.trans e1⟩
    · unfold freeAll at h2 ⊢
      rw [List.foldlM_cons, h1, ok_bind, h2]
    · rw [List.filter_filter] at g2
      have hc : (fun x : Nat × List Byte => decide (x.1 ∉ a :: as)) = fun x => (decide (x.1 ∉ as) && decide (x.1 ≠ a)) := by
        funext x
        rw [← Bool.decide_and]
        congr 1
        simp only [List.mem_cons, not_or, eq_iff_iff]
        exact And.comm
      rw [hc]
      exact g2

/-- The order in which `mbus_record_free` releases the blocks. -/
def freeOrder (w : HRecord) : List Nat :=
  (if w.numeric then [] else w.text.toList) ++ (w.unit.toList ++ (w.function.toList ++ (w.quantity.toList ++ [w.self])))

theorem freePtr_all (m : Mem) (p : Option Nat) (rest : List Nat) : (m.freePtr p >>= fun m => freeAll m rest) = freeAll m (p.toList ++ rest) := by
  cases p with
  | none => rfl
  | some a => rfl

theorem recordFree_order (m : Mem) (w : HRecord) : recordFree m (some w) = freeAll m (freeOrder w) := by
  have h1 : ∀ m : Mem, m.free w.self = freeAll m [w.self] := by
    intro m
    show _ = (m.free w.self >>= fun m => .ok m)
    cases m.free w.self <;> rfl
  unfold recordFree freeOrder
  dsimp only
  rw [funext h1]
  simp only [freePtr_all]
  cases hn : w.numeric with
  | true => rfl
  | false => rfl

theorem freeOrder_perm (w : HRecord) : (freeOrder w).Perm (ownBlocks w) := by
  unfold freeOrder ownBlocks
  have : (if w.numeric then [] else w.text.toList) ++ (w.unit.toList ++ (w.function.toList ++ (w.quantity.toList ++ [w.self]))) =
      ((if w.numeric then [] else w.text.toList) ++ (w.unit.toList ++ (w.function.toList ++ w.quantity.toList))) ++ [w.self] := by
    simp only [List.append_assoc]
  rw [this]
  exact List.perm_append_singleton _ _

theorem recordFree_grown {m0 m : Mem} {news} (hm : MemOk m0) (h : Grown m0 m news) (w : HRecord) (hn : (ownBlocks w).Nodup)
    (ha : ∀ a ∈ ownBlocks w, a ∈ news.map (·.1)) :
    ∃ m', recordFree m (some w) = .ok m' ∧ Grown m0 m' (news.filter fun x => decide (x.1 ∉ ownBlocks w)) ∧ m'.answers = m.answers := by
  have hp := freeOrder_perm w
  obtain ⟨m', h1, h2, h3⟩ := freeAll_grown hm (freeOrder w) h (hp.nodup_iff.mpr hn) (fun a h => ha a (hp.mem_iff.mp h))
  refine ⟨m', by rw [recordFree_order, h1], ?_, h3⟩
  have hc : (fun x : Nat × List Byte => decide (x.1 ∉ ownBlocks w)) = fun x => decide (x.1 ∉ freeOrder w) := by
    funext x
    rw [decide_eq_decide, hp.mem_iff]
  rw [hc]
  exact h2

theorem load_live {m : Mem} (hm : MemOk m) {a : Nat} {s : List Byte} (h : (a, s) ∈ m.live) : m.load a = .ok s := by
  have : m.live.lookup a = some s := by
    have hn := hm.1
    revert h hn
    generalize m.live = l
    intro h0 hn
    induction l with
    | nil => cases h0
    | cons x l ih =>
      obtain ⟨b, t⟩ := x
      rw [List.map_cons, List.nodup_cons] at hn
      rcases List.mem_cons.mp h0 with h | h
      · injection h with h1 h2
        subst h1; subst h2
        simp [List.lookup]
      · have hne : a ≠ b := by
          intro he
          exact hn.1 (List.mem_map.mpr ⟨(a, s), h, he⟩)
        have hb : (a == b) = false := by simpa using hne
        rw [List.lookup_cons, hb]
        exact ih h hn.2
  unfold Mem.load
  rw [this]

/-- A string stored in a live block. -/
theorem string_live {m : Mem} (hm : MemOk m) {a : Nat} {s : List Byte} (h : (a, s ++ [0]) ∈ m.live) (hs : (0 : Byte) ∉ s) :
    m.string (some a) = .ok (some s) := by
  have hc : cstr (s ++ [0]) = .ok s := by
    rw [cstr_prefix s _ (List.prefix_refl _), upToNul_eq s hs]
  show (m.load a >>= _) = _
  rw [load_live hm h, ok_bind, hc, ok_bind]

theorem drop_grown {m0 m : Mem} {news} (hm : MemOk m0) (h : Grown m0 m news) (w : HRecord) (hn : (ownBlocks w).Nodup)
    (ha : ∀ a ∈ ownBlocks w, a ∈ news.map (·.1)) :
    ∃ m', dropRecord w m = .ok (none, m') ∧ Grown m0 m' (news.filter fun x => decide (x.1 ∉ ownBlocks w)) ∧ m'.answers = m.answers := by
  obtain ⟨m', h1, h2, h3⟩ := recordFree_grown hm h w hn ha
  refine ⟨m', ?_, h2, h3⟩
  unfold dropRecord
  rw [h1, ok_bind]

/-- Dropping a record whose blocks are `A` and `B` leaves what lies between. -/
theorem filter_drop (A L B : List (Nat × List Byte)) (own : List Nat) (hp : own.Perm ((A ++ B).map (·.1))) (hn : ((A ++ (L ++ B)).map (·.1)).Nodup) :
    (A ++ (L ++ B)).filter (fun x => decide (x.1 ∉ own)) = L ∧ own.Nodup ∧ ∀ a ∈ own, a ∈ (A ++ (L ++ B)).map (·.1) := by
  simp only [List.map_append, List.nodup_append, List.mem_append] at hn
  obtain ⟨nA, ⟨nL, nB, hLB⟩, hA⟩ := hn
  have hmem : ∀ a, a ∈ own ↔ a ∈ A.map (·.1) ∨ a ∈ B.map (·.1) := by
    intro a
    rw [hp.mem_iff, List.map_append, List.mem_append]
  refine ⟨?_, ?_, ?_⟩
  · rw [List.filter_append, List.filter_append, filter_all _ L, List.filter_eq_nil_iff.mpr, List.filter_eq_nil_iff.mpr, List.nil_append, List.append_nil]
    · intro x hx
      have : x.1 ∈ own := (hmem _).mpr (.inr (List.mem_map_of_mem hx))
      simp [this]
    · intro x hx
      have : x.1 ∈ own := (hmem _).mpr (.inl (List.mem_map_of_mem hx))
      simp [this]
    · intro x hx
      simp only [decide_eq_true_eq]
      intro h
      rcases (hmem _).mp h with h | h
      · exact hA _ h _ (.inl (List.mem_map_of_mem hx)) rfl
      · exact hLB _ (List.mem_map_of_mem hx) _ h rfl
  · rw [hp.nodup_iff, List.map_append, List.nodup_append]
    exact ⟨nA, nB, fun a ha b hb => hA a ha b (.inr hb)⟩
  · intro a h
    simp only [List.map_append, List.mem_append]
    rcases (hmem a).mp h with h | h
    · exact .inl h
    · exact .inr (.inr h)

/-- The same for a call of `dropRecord`. -/
theorem drop_between {m0 m : Mem} (A L B : List (Nat × List Byte)) (hm : MemOk m0) (h : Grown m0 m (A ++ (L ++ B))) (w : HRecord)
    (hp : (ownBlocks w).Perm ((A ++ B).map (·.1))) :
    ∃ m', dropRecord w m = .ok (none, m') ∧ Grown m0 m' L ∧ m'.answers = m.answers := by
  obtain ⟨h1, h2, h3⟩ := filter_drop A L B _ hp h.nodup
  obtain ⟨m', e, g, a⟩ := drop_grown hm h w h2 h3
  rw [h1] at g
  exact ⟨m', e, g, a⟩

theorem value_cases {junk : Nat → Byte} {r : Record} {o : ValOut} (ho : variableValueDecode junk r = .ok o) (m : Mem) :
    (∃ p m' L, valueDecodeOwned junk r m = .ok (o, p, m') ∧ Grown m m' L ∧ (Granting m → Granting m') ∧
      ((o.str = none ∧ p = none ∧ L = []) ∨ ∃ a s, o.str = some s ∧ p = some a ∧ L = [(a, s)])) ∨
    (∃ m', valueDecodeOwned junk r m = .ok (⟨-1, Flt.ofInt 0, none, 0⟩, none, m') ∧ Grown m m' [] ∧ ¬ Granting m) := by
  unfold valueDecodeOwned
  rw [ho, ok_bind]
  cases hs : o.str with
  | none => exact .inl ⟨none, m, [], rfl, Grown.refl m, id, .inl ⟨rfl, rfl, rfl⟩⟩
  | some s =>
    dsimp only
    rcases alloc_cases m s with ⟨m', h, g, hg⟩ | ⟨m', h, g, hg⟩
    · rw [h]
      exact .inl ⟨_, m', _, rfl, g, hg, .inr ⟨_, s, rfl, rfl, rfl⟩⟩
    · rw [h]
      exact .inr ⟨m', rfl, g, hg⟩

theorem dup_cases (m : Mem) (n : Norm) : ∃ u q m' D, dupNorm m n = (u, q, m') ∧ Grown m m' D ∧ D.map (·.1) = q.toList ++ u.toList ∧
    (∀ a, u = some a → (a, n.unit ++ [0]) ∈ D) ∧ (∀ a, q = some a → (a, n.quantity ++ [0]) ∈ D) ∧
    (Granting m → Granting m' ∧ u ≠ none ∧ q ≠ none) := by
  unfold dupNorm
  rcases alloc_cases m (n.unit ++ [0]) with ⟨m1, h, g, hg⟩ | ⟨m1, h, g, hg⟩ <;> rw [h] <;> dsimp only <;>
    rcases alloc_cases m1 (n.quantity ++ [0]) with ⟨m2, h', g', hg'⟩ | ⟨m2, h', g', hg'⟩ <;> rw [h'] <;>
    refine ⟨_, _, m2, _, rfl, g.trans g', ?_, ?_, ?_, ?_⟩
  all_goals first
    | rfl
    | (intro a ha; injection ha with ha; subst ha; simp)
    | (intro a ha; cases ha)
    | (intro h; exact ⟨hg' (hg h), by simp, by simp⟩)
    | (intro h; exact absurd (hg h) hg')
    | (intro h; exact absurd h hg)

theorem string_opt {m : Mem} (hm : MemOk m) (p : Option Nat) (s : List Byte) (h : ∀ a, p = some a → (a, s ++ [0]) ∈ m.live) (hs : (0 : Byte) ∉ s) :
    m.string p = .ok (p.map fun _ => s) := by
  cases p with
  | none => rfl
  | some a => exact string_live hm (h a rfl) hs

/-- Reading a record whose texts are live. -/
theorem read_live {m : Mem} (hm : MemOk m) (w : HRecord) (v : NVal) (un fn qu : List Byte) (f : Nat) (hf : w.function = some f)
    (h1 : (f, fn ++ [0]) ∈ m.live) (h2 : ∀ a, w.unit = some a → (a, un ++ [0]) ∈ m.live) (h3 : ∀ a, w.quantity = some a → (a, qu ++ [0]) ∈ m.live)
    (z1 : (0 : Byte) ∉ fn) (z2 : (0 : Byte) ∉ un) (z3 : (0 : Byte) ∉ qu)
    (hv : (w.numeric = true ∧ v = .num w.real) ∨ (w.numeric = false ∧ ∃ a s, w.text = some a ∧ (a, s) ∈ m.live ∧ v = .str s w.size)) :
    w.read m = .ok ⟨v, w.unit.map fun _ => un, fn, w.quantity.map fun _ => qu, w.device, w.tariff, w.storage⟩ := by
  have hv' : w.readValue m = .ok v := by
    unfold HRecord.readValue
    rcases hv with ⟨hn, rfl⟩ | ⟨hn, a, s, ht, hl, rfl⟩
    · rw [if_pos hn]
    · rw [if_neg (by simp [hn]), ht]
      show (m.load a >>= _) = _
      rw [load_live hm hl, ok_bind]
  unfold HRecord.read
  rw [hv', ok_bind, string_opt hm w.unit un h2 z2, ok_bind, hf, string_live hm h1 z1, ok_bind, string_opt hm w.quantity qu h3 z3, ok_bind]

theorem granting_of_eq {m m' : Mem} (h : m'.answers = m.answers) (hg : Granting m) : Granting m' := by
  intro b hb
  rw [h] at hb
  exact hg b hb

theorem special_runs {junk : Nat → Byte} {r : Record} {o : ValOut} (ho : variableValueDecode junk r = .ok o) {m m2 : Mem} (hm : MemOk m)
    (w : HRecord) (fn : List Byte) (a0 a1 : Nat) (hB : Grown m m2 [(a1, fn ++ [0]), (a0, [])]) (hfn : (0 : Byte) ∉ fn)
    (h1 : w.self = a0) (h2 : w.numeric = true) (h3 : w.unit = none) (h4 : w.quantity = none) (h5 : w.function = some a1)
    (x : Option NRecord) (leak : Option (List Byte))
    (hx : (o.code ≠ 0 ∧ x = none ∧ leak = o.str) ∨ (o.code = 0 ∧ leak = none ∧
      x = some ⟨match o.str with | some s => .str s o.size | none => .num (Flt.ofInt 0), none, fn, none, w.device, w.tariff, w.storage⟩)) :
    ∃ res m' news, specialOwned junk r w m2 = .ok (res, m') ∧ Grown m m' news ∧ (Granting m2 → Granting m') ∧ Handed x leak res m' news ∧
      (Granting m2 → HandedAll x leak res m' news) := by
  unfold specialOwned
  have hown : ownBlocks w = [a0, a1] := by simp [ownBlocks, h1, h2, h3, h4, h5]
  rcases value_cases ho m2 with ⟨p, m3, L, hv, g3, hg3, hL⟩ | ⟨m3, hv, g3, hg3⟩
  · rw [hv, ok_bind]
    dsimp only
    have g := hB.trans g3
    rcases hx with ⟨hc, rfl, rfl⟩ | ⟨hc, rfl, rfl⟩
    · rw [if_pos hc]
      obtain ⟨m', e, g', ha⟩ := drop_between [] L [(a1, fn ++ [0]), (a0, [])] hm g w (by rw [hown]; exact List.Perm.swap _ _ _)
      refine ⟨none, m', L, e, g', fun h => granting_of_eq ha (hg3 h), ?_, fun _ => ⟨rfl, ?_⟩⟩
      · rcases hL with ⟨hs, _, rfl⟩ | ⟨a, s, hs, _, rfl⟩
        · exact .inl rfl
        · exact .inr ⟨rfl, a, s, hs, rfl⟩
      · rcases hL with ⟨hs, _, rfl⟩ | ⟨a, s, hs, _, rfl⟩ <;> rw [hs] <;> rfl
    · rw [if_neg (by simp [hc])]
      have hok := g.ok hm
      have hl1 : (a1, fn ++ [0]) ∈ m3.live := by rw [g.live]; simp
      have hread : (w.setValue p o.size (Flt.ofInt 0)).read m3 =
          .ok ⟨match o.str with | some s => .str s o.size | none => .num (Flt.ofInt 0), none, fn, none, w.device, w.tariff, w.storage⟩ := by
        rcases hL with ⟨hs, rfl, rfl⟩ | ⟨a, s, hs, rfl, rfl⟩
        · rw [hs]
          have := read_live hok (w.setValue none o.size (Flt.ofInt 0)) (.num (Flt.ofInt 0)) [] fn [] a1 h5 hl1 (by rw [show (w.setValue none o.size (Flt.ofInt 0)).unit = none from h3]; simp)
            (by rw [show (w.setValue none o.size (Flt.ofInt 0)).quantity = none from h4]; simp) hfn (by simp) (by simp) (.inl ⟨rfl, rfl⟩)
          rw [this]
          simp [HRecord.setValue, h3, h4]
        · rw [hs]
          have := read_live hok (w.setValue (some a) o.size (Flt.ofInt 0)) (.str s o.size) [] fn [] a1 h5 hl1 (by rw [show (w.setValue (some a) o.size (Flt.ofInt 0)).unit = none from h3]; simp)
            (by rw [show (w.setValue (some a) o.size (Flt.ofInt 0)).quantity = none from h4]; simp) hfn (by simp) (by simp) (.inr ⟨rfl, a, s, rfl, by rw [g.live]; simp, rfl⟩)
          rw [this]
          simp [HRecord.setValue, h3, h4]
      refine ⟨_, m3, _, rfl, g, hg3, ⟨?_, _, _, rfl, hread, ?_⟩, fun _ => ⟨_, rfl, hread⟩⟩
      · rcases hL with ⟨hs, rfl, rfl⟩ | ⟨a, s, hs, rfl, rfl⟩
        · simp only [ownBlocks, HRecord.setValue, h1, h3, h4, h5]
          exact List.Perm.swap _ _ _
        · simp only [ownBlocks, HRecord.setValue, h1, h3, h4, h5]
          refine List.perm_iff_count.mpr fun b => ?_
          simp [List.count_cons]
          omega
      · exact ⟨rfl, rfl, rfl, rfl, rfl, .inl rfl, .inl rfl⟩
  · rw [hv, ok_bind]
    dsimp only
    rw [if_pos (by decide)]
    have g := hB.trans g3
    obtain ⟨m', e, g', ha⟩ := drop_between [] [] [(a1, fn ++ [0]), (a0, [])] hm g w (by rw [hown]; exact List.Perm.swap _ _ _)
    exact ⟨none, m', [], e, g', fun h => absurd h hg3, .inl rfl, fun h => absurd h hg3⟩

theorem plain_runs {junk : Nat → Byte} {r : Record} {o : ValOut} (ho : variableValueDecode junk r = .ok o) {m m2 : Mem} (hm : MemOk m)
    (w : HRecord) (fn : List Byte) (a0 a1 : Nat) (hB : Grown m m2 [(a1, fn ++ [0]), (a0, [])]) (hfn : (0 : Byte) ∉ fn)
    (h1 : w.self = a0) (h2 : w.numeric = true) (h3 : w.unit = none) (h4 : w.quantity = none) (h5 : w.function = some a1)
    (N : Option Norm) (hN : vibUnitNormalize r (o.real) = .ok N) (hz : ∀ n, N = some n → (0 : Byte) ∉ n.unit ∧ (0 : Byte) ∉ n.quantity)
    (x : Option NRecord) (leak : Option (List Byte))
    (hx : (o.code ≠ 0 ∧ x = none ∧ leak = o.str) ∨ (o.code = 0 ∧ (N = none ∨ ∃ n, N = some n ∧ n.code ≠ 0) ∧ x = none ∧ leak = o.str) ∨
      ∃ n, o.code = 0 ∧ N = some n ∧ n.code = 0 ∧ leak = none ∧
      x = some ⟨match o.str with | some s => .str s o.size | none => .num n.value, some n.unit, fn, some n.quantity, w.device, w.tariff, w.storage⟩) :
    ∃ res m' news, plainOwned junk r w m2 = .ok (res, m') ∧ Grown m m' news ∧ (Granting m2 → Granting m') ∧ Handed x leak res m' news ∧
      (Granting m2 → HandedAll x leak res m' news) := by
  unfold plainOwned
  have hown : ownBlocks w = [a0, a1] := by simp [ownBlocks, h1, h2, h3, h4, h5]
  rcases value_cases ho m2 with ⟨p, m3, L, hv, g3, hg3, hL⟩ | ⟨m3, hv, g3, hg3⟩
  · rw [hv, ok_bind]
    dsimp only
    have g := hB.trans g3
    have lost : Handed none o.str none m3 L ∧ L.map (·.2) = o.str.toList := by
      rcases hL with ⟨hs, _, rfl⟩ | ⟨a, s, hs, _, rfl⟩
      · exact ⟨.inl rfl, by rw [hs]; rfl⟩
      · exact ⟨.inr ⟨rfl, a, s, hs, rfl⟩, by rw [hs]; rfl⟩
    rcases hx with ⟨hc, rfl, rfl⟩ | ⟨hc, hbad, rfl, rfl⟩ | ⟨n, hc, rfl, hnc, rfl, rfl⟩
    · rw [if_pos hc]
      obtain ⟨m', e, g', ha⟩ := drop_between [] L [(a1, fn ++ [0]), (a0, [])] hm g w (by rw [hown]; exact List.Perm.swap _ _ _)
      exact ⟨none, m', L, e, g', fun h => granting_of_eq ha (hg3 h), lost.1, fun _ => ⟨rfl, lost.2⟩⟩
    · rw [if_neg (by simp [hc])]
      unfold normalizeOwned
      rw [hN, ok_bind]
      rcases hbad with rfl | ⟨n, rfl, hnc⟩
      · dsimp only
        rw [ok_bind]
        dsimp only
        obtain ⟨m', e, g', ha⟩ := drop_between [] L [(a1, fn ++ [0]), (a0, [])] hm g { w with unit := none, quantity := none } (by
          simp only [ownBlocks, h1, h2, h5]; exact List.Perm.swap _ _ _)
        exact ⟨none, m', L, e, g', fun h => granting_of_eq ha (hg3 h), lost.1, fun _ => ⟨rfl, lost.2⟩⟩
      · obtain ⟨u, q, m4, D, hd, g4, hD, hu, hq, hg4⟩ := dup_cases m3 n
        dsimp only
        rw [hd]
        dsimp only
        rw [ok_bind]
        dsimp only
        rw [if_pos hnc]
        obtain ⟨m', e, g', ha⟩ := drop_between D L [(a1, fn ++ [0]), (a0, [])] hm (g.trans g4) { w with unit := u, quantity := q } (by
          rw [List.map_append, hD]
          simp only [ownBlocks, h1, h2, h5]
          refine List.perm_iff_count.mpr fun b => ?_
          simp [List.count_cons, List.count_append]
          omega)
        exact ⟨none, m', L, e, g', fun h => granting_of_eq ha (hg4 (hg3 h)).1, lost.1, fun _ => ⟨rfl, lost.2⟩⟩
    · rw [if_neg (by simp [hc])]
      unfold normalizeOwned
      rw [hN, ok_bind]
      obtain ⟨u, q, m4, D, hd, g4, hD, hu, hq, hg4⟩ := dup_cases m3 n
      dsimp only
      rw [hd]
      dsimp only
      rw [ok_bind]
      dsimp only
      rw [if_neg (by simp [hnc])]
      have g5 := g.trans g4
      have hok := g5.ok hm
      obtain ⟨zu, zq⟩ := hz n rfl
      have hl1 : (a1, fn ++ [0]) ∈ m4.live := by rw [g5.live]; simp
      have hD' : ∀ y ∈ D, y ∈ m4.live := by
        intro y hy
        rw [g5.live]
        exact List.mem_append_left _ (List.mem_append_left _ hy)
      let v : NVal := match o.str with | some s => .str s o.size | none => .num n.value
      have hread : ({ w with unit := u, quantity := q }.setValue p o.size n.value).read m4 =
          .ok ⟨v, u.map fun _ => n.unit, fn, q.map fun _ => n.quantity, w.device, w.tariff, w.storage⟩ := by
        rcases hL with ⟨hs, rfl, rfl⟩ | ⟨a, s, hs, rfl, rfl⟩
        · have hv' : v = .num n.value := by simp only [v, hs]
          rw [hv']
          exact read_live hok ({ w with unit := u, quantity := q }.setValue none o.size n.value) _ n.unit fn n.quantity a1 h5 hl1
            (fun a h => hD' _ (hu a h)) (fun a h => hD' _ (hq a h)) hfn zu zq (.inl ⟨rfl, rfl⟩)
        · have hv' : v = .str s o.size := by simp only [v, hs]
          rw [hv']
          exact read_live hok ({ w with unit := u, quantity := q }.setValue (some a) o.size n.value) _ n.unit fn n.quantity a1 h5 hl1
            (fun a h => hD' _ (hu a h)) (fun a h => hD' _ (hq a h)) hfn zu zq (.inr ⟨rfl, a, s, rfl, by rw [g5.live]; simp, rfl⟩)
      refine ⟨_, m4, _, rfl, g5, fun h => (hg4 (hg3 h)).1, ⟨?_, _, _, rfl, hread, ?_⟩, fun h => ⟨_, rfl, ?_⟩⟩
      · rw [List.map_append, List.map_append, hD]
        rcases hL with ⟨hs, rfl, rfl⟩ | ⟨a, s, hs, rfl, rfl⟩
        · simp only [ownBlocks, HRecord.setValue, h1, h5]
          refine List.perm_iff_count.mpr fun b => ?_
          simp [List.count_cons, List.count_append]
          omega
        · simp only [ownBlocks, HRecord.setValue, h1, h5]
          refine List.perm_iff_count.mpr fun b => ?_
          simp [List.count_cons, List.count_append]
          omega
      · refine ⟨rfl, rfl, rfl, rfl, rfl, ?_, ?_⟩
        · cases u
          · exact .inr rfl
          · exact .inl rfl
        · cases q
          · exact .inr rfl
          · exact .inl rfl
      · obtain ⟨_, n1, n2⟩ := hg4 (hg3 h)
        rw [hread]
        cases u with
        | none => exact absurd rfl n1
        | some u =>
          cases q with
          | none => exact absurd rfl n2
          | some q => rfl
  · rw [hv, ok_bind]
    dsimp only
    rw [if_pos (by decide)]
    have g := hB.trans g3
    obtain ⟨m', e, g', ha⟩ := drop_between [] [] [(a1, fn ++ [0]), (a0, [])] hm g w (by rw [hown]; exact List.Perm.swap _ _ _)
    exact ⟨none, m', [], e, g', fun h => absurd h hg3, .inl rfl, fun h => absurd h hg3⟩

theorem recordFunction_nonul (r : Record) : (0 : Byte) ∉ recordFunction r := by
  unfold recordFunction recordFunctionText
  dsimp only
  split
  · decide
  · split
    · decide
    · split
      · decide
      · split <;> decide

/-- `mbus_parse_variable_record` on the heap, for a record that the plain model handles. -/
theorem variableOwned_runs {junk : Nat → Byte} {r : Record} (hr : Delivered r) (hst : StorageOk r) {m : Mem} (hm : MemOk m) :
    ∃ x leak res m' news, parseVariableRecord junk r = .ok (x, leak) ∧ parseVariableOwned junk r m = .ok (res, m') ∧ Grown m m' news ∧
      (Granting m → Granting m') ∧ Handed x leak res m' news ∧ (Granting m → HandedAll x leak res m' news) := by
  obtain ⟨o, x, leak, ho, _, _, hp, _⟩ := parseVariableRecord_eq hr hst junk
  refine ⟨x, leak, ?_⟩
  obtain ⟨h1, h2, h3⟩ := hr.bounds
  obtain ⟨ta, dv⟩ := C33_tariff_device r h3
  have st := C33_storage_partial r hst.1 hst.2
  obtain ⟨⟨c, hc⟩, _⟩ := hr.unit
  have hp' := hp
  unfold parseVariableRecord at hp'
  rw [st, ok_bind, ta, ok_bind, dv, ok_bind] at hp'
  unfold parseVariableOwned recordNew
  rcases alloc_cases m [] with ⟨m1, e1, g1, hg1⟩ | ⟨m1, e1, g1, hg1⟩
  · rw [e1]
    dsimp only
    rw [st, ok_bind, ta, ok_bind, dv, ok_bind]
    have step : ∀ (fn : List Byte) (rest : HRecord → Mem → C (Option HRecord × Mem)) (w : HRecord), ownBlocks w = [m.next] →
        (∀ (m2 : Mem) (a1 : Nat), Grown m m2 [(a1, fn ++ [0]), (m.next, [])] →
          ∃ res m' news, rest { w with function := some a1 } m2 = .ok (res, m') ∧ Grown m m' news ∧ (Granting m2 → Granting m') ∧
            Handed x leak res m' news ∧ (Granting m2 → HandedAll x leak res m' news)) →
        ∃ res m' news, parseVariableRecord junk r = .ok (x, leak) ∧ functionOwned fn w m1 rest = .ok (res, m') ∧ Grown m m' news ∧
          (Granting m → Granting m') ∧ Handed x leak res m' news ∧ (Granting m → HandedAll x leak res m' news) := by
      intro fn rest w hw hrest
      unfold functionOwned
      rcases alloc_cases m1 (fn ++ [0]) with ⟨m2, e2, g2, hg2⟩ | ⟨m2, e2, g2, hg2⟩
      · rw [e2]
        dsimp only
        obtain ⟨res, m', news, a, b, c, d, e⟩ := hrest m2 m1.next (g1.trans g2)
        exact ⟨res, m', news, hp, a, b, fun h => c (hg2 (hg1 h)), d, fun h => e (hg2 (hg1 h))⟩
      · rw [e2]
        dsimp only
        obtain ⟨m', e, g', ha⟩ := drop_between [] [] [(m.next, [])] hm (g1.trans g2) w (by rw [hw]; exact List.Perm.refl _)
        exact ⟨none, m', [], hp, e, g', fun h => absurd (hg1 h) hg2, .inl rfl, fun h => absurd (hg1 h) hg2⟩
    by_cases hs : r.dif = 0x0F ∨ r.dif = 0x1F
    · rw [if_pos hs, ho, ok_bind] at hp'
      rw [if_pos hs]
      apply step _ _ _ rfl
      intro m2 a1 hB
      refine special_runs ho hm _ _ m.next a1 hB (by split <;> decide) rfl rfl rfl rfl rfl x leak ?_
      split at hp'
      · rename_i hcode
        injection hp' with hp'
        injection hp' with h1 h2
        exact .inl ⟨hcode, h1.symm, h2.symm⟩
      · rename_i hcode
        injection hp' with hp'
        injection hp' with h1 h2
        refine .inr ⟨by simpa using hcode, h2.symm, ?_⟩
        exact h1.symm
    · rw [if_neg hs, ho, ok_bind] at hp'
      rw [if_neg hs]
      apply step _ _ _ rfl
      intro m2 a1 hB
      obtain ⟨N, hN⟩ : ∃ N, vibUnitNormalize r (o.real) = .ok N := by
        obtain ⟨N, h, _⟩ := normalize_delivered hr hs (o.real)
        exact ⟨_, h⟩
      refine plain_runs ho hm _ _ m.next a1 hB ?_ rfl rfl rfl rfl rfl N hN ?_ x leak ?_
      · exact recordFunction_nonul r
      · intro n hn
        subst hn
        obtain ⟨a, b, _⟩ := vibUnit_short r _ c hc n hN
        exact ⟨a.1, b⟩
      · split at hp'
        · rename_i hcode
          injection hp' with hp'
          injection hp' with h1 h2
          exact .inl ⟨hcode, h1.symm, h2.symm⟩
        · rename_i hcode
          rw [hN, ok_bind] at hp'
          cases N with
          | none =>
            injection hp' with hp'
            injection hp' with h1 h2
            exact .inr (.inl ⟨by simpa using hcode, .inl rfl, h1.symm, h2.symm⟩)
          | some n =>
            dsimp only at hp'
            split at hp'
            · rename_i hn
              injection hp' with hp'
              injection hp' with h1 h2
              exact .inr (.inl ⟨by simpa using hcode, .inr ⟨n, rfl, hn⟩, h1.symm, h2.symm⟩)
            · rename_i hn
              injection hp' with hp'
              injection hp' with h1 h2
              refine .inr (.inr ⟨n, by simpa using hcode, rfl, by simpa using hn, h2.symm, ?_⟩)
              exact h1.symm
  · rw [e1]
    exact ⟨none, m1, [], hp, rfl, g1, fun h => absurd h hg1, .inl rfl, fun h => absurd h hg1⟩

theorem fixedFunction_nonul (z : Int) : (0 : Byte) ∉ fixedFunction z := by
  unfold fixedFunction fixedFunctionText
  split <;> decide

theorem fixedTable_nonul : ∀ row ∈ fixedTable, (0 : Byte) ∉ row.unit ∧ (0 : Byte) ∉ row.quantity := by decide +kernel

theorem fixedNormalize_nonul (u v : Int) (q : Flt) : (0 : Byte) ∉ (fixedNormalize u v q).unit ∧ (0 : Byte) ∉ (fixedNormalize u v q).quantity := by
  unfold fixedNormalize
  dsimp only
  split
  · exact ⟨by show (0 : Byte) ∉ cs! "h,m,s"; decide, by show (0 : Byte) ∉ cs! "Time"; decide⟩
  · split
    · exact ⟨by show (0 : Byte) ∉ cs! "D,M,Y"; decide, by show (0 : Byte) ∉ cs! "Time"; decide⟩
    · split
      · rename_i row h
        exact fixedTable_nonul row (List.mem_of_find?_eq_some h)
      · decide

/-- The number a counter of the fixed structure holds. -/
def fixedNumber (status : Byte) (d : List Byte) : C Int :=
  if status &&& 0x80 = 0x00 then bcdDecode d 4
  else do
    let (_, v) ← longDecode d 4
    .ok v

theorem fixedRecord_alt (status unit : Byte) (d : List Byte) : parseFixedRecord status unit d =
    (fixedNumber status d >>= fun v => if (fixedNormalize unit.toNat v (.lit 0)).code ≠ 0 then .ok none else .ok (some
      { value := .num ((fixedNormalize unit.toNat v (.lit 0)).value)
        unit := some (fixedNormalize unit.toNat v (.lit 0)).unit
        function := fixedFunction status.toNat
        quantity := some (fixedNormalize unit.toNat v (.lit 0)).quantity
        device := -1
        tariff := -1
        storage := 0 })) := by
  unfold parseFixedRecord fixedNumber
  split
  · rfl
  · cases longDecode d 4 <;> rfl

theorem fixedOwned_alt (status unit : Byte) (d : List Byte) (w : HRecord) (m : Mem) : fixedOwned status unit d w m =
    (fixedNumber status d >>= fun v =>
      if (fixedNormalize unit.toNat v (.lit 0)).code ≠ 0 then
        dropRecord { w with unit := (dupNorm m (fixedNormalize unit.toNat v (.lit 0))).1, quantity := (dupNorm m (fixedNormalize unit.toNat v (.lit 0))).2.1, real := (fixedNormalize unit.toNat v (.lit 0)).value } (dupNorm m (fixedNormalize unit.toNat v (.lit 0))).2.2
      else .ok (some { w with unit := (dupNorm m (fixedNormalize unit.toNat v (.lit 0))).1, quantity := (dupNorm m (fixedNormalize unit.toNat v (.lit 0))).2.1, real := (fixedNormalize unit.toNat v (.lit 0)).value }, (dupNorm m (fixedNormalize unit.toNat v (.lit 0))).2.2)) := by
  unfold fixedOwned fixedNumber
  split
  · rfl
  · cases longDecode d 4 <;> rfl

theorem fixedOwned_runs (status unit : Byte) (d : List Byte) (x : Option NRecord) (hp : parseFixedRecord status unit d = .ok x) {m : Mem} (hm : MemOk m) :
    ∃ res m' news, parseFixedOwned status unit d m = .ok (res, m') ∧ Grown m m' news ∧
      (Granting m → Granting m') ∧ Handed x none res m' news ∧ (Granting m → HandedAll x none res m' news) := by
  unfold parseFixedOwned recordNew
  rcases alloc_cases m [] with ⟨m1, e1, g1, hg1⟩ | ⟨m1, e1, g1, hg1⟩
  · rw [e1]
    dsimp only
    unfold functionOwned
    rcases alloc_cases m1 (fixedFunction status.toNat ++ [0]) with ⟨m2, e2, g2, hg2⟩ | ⟨m2, e2, g2, hg2⟩
    · rw [e2]
      dsimp only
      have g := g1.trans g2
      rw [fixedRecord_alt] at hp
      obtain ⟨v, hv, hp⟩ := bind_eq_ok.mp hp
      rw [fixedOwned_alt, hv, ok_bind]
      obtain ⟨u, q, m4, D, hd, g4, hD, hu, hq, hg4⟩ := dup_cases m2 (fixedNormalize unit.toNat v (.lit 0))
      rw [hd]
      dsimp only
      split at hp
      · rename_i hc
        rw [if_pos hc]
        injection hp with hp
        subst hp
        obtain ⟨m', e, g', ha⟩ := drop_between D [] [(m1.next, fixedFunction status.toNat ++ [0]), (m.next, [])] hm (g.trans g4)
          { self := m.next, numeric := true, real := (fixedNormalize unit.toNat v (.lit 0)).value, text := none, size := 0, unit := u, function := some m1.next, quantity := q, device := -1, tariff := -1, storage := 0 } (by
          rw [List.map_append, hD]
          simp only [ownBlocks]
          refine List.perm_iff_count.mpr fun b => ?_
          simp [List.count_cons, List.count_append]
          omega)
        exact ⟨none, m', [], e, g', fun h => granting_of_eq ha (hg4 (hg2 (hg1 h))).1, .inl rfl, fun _ => ⟨rfl, rfl⟩⟩
      · rename_i hc
        rw [if_neg hc]
        injection hp with hp
        subst hp
        have g5 := g.trans g4
        have hok := g5.ok hm
        obtain ⟨zu, zq⟩ := fixedNormalize_nonul unit.toNat v (.lit 0)
        have hl1 : (m1.next, fixedFunction status.toNat ++ [0]) ∈ m4.live := by rw [g5.live]; simp
        have hD' : ∀ y ∈ D, y ∈ m4.live := by
          intro y hy
          rw [g5.live]
          exact List.mem_append_left _ (List.mem_append_left _ hy)
        have hread := read_live hok { self := m.next, numeric := true, real := (fixedNormalize unit.toNat v (.lit 0)).value, text := none, size := 0, unit := u, function := some m1.next, quantity := q, device := -1, tariff := -1, storage := 0 }
          (.num ((fixedNormalize unit.toNat v (.lit 0)).value)) (fixedNormalize unit.toNat v (.lit 0)).unit (fixedFunction status.toNat) (fixedNormalize unit.toNat v (.lit 0)).quantity m1.next rfl hl1
          (fun a h => hD' _ (hu a h)) (fun a h => hD' _ (hq a h)) (fixedFunction_nonul _) zu zq (.inl ⟨rfl, rfl⟩)
        refine ⟨_, m4, _, rfl, g5, fun h => (hg4 (hg2 (hg1 h))).1, ⟨?_, _, _, rfl, hread, ?_⟩, fun h => ⟨_, rfl, ?_⟩⟩
        · rw [List.map_append, hD]
          simp only [ownBlocks]
          refine List.perm_iff_count.mpr fun b => ?_
          simp [List.count_cons, List.count_append]
          omega
        · refine ⟨rfl, rfl, rfl, rfl, rfl, ?_, ?_⟩
          · cases u
            · exact .inr rfl
            · exact .inl rfl
          · cases q
            · exact .inr rfl
            · exact .inl rfl
        · obtain ⟨_, n1, n2⟩ := hg4 (hg2 (hg1 h))
          rw [hread]
          cases u with
          | none => exact absurd rfl n1
          | some u =>
            cases q with
            | none => exact absurd rfl n2
            | some q => rfl
    · rw [e2]
      dsimp only
      obtain ⟨m', e, g', ha⟩ := drop_between [] [] [(m.next, [])] hm (g1.trans g2) ⟨m.next, true, Flt.ofInt 0, none, 0, none, none, none, -1, -1, 0⟩ (List.Perm.refl _)
      exact ⟨none, m', [], e, g', fun h => absurd (hg1 h) hg2, .inl rfl, fun h => absurd (hg1 h) hg2⟩
  · rw [e1]
    exact ⟨none, m1, [], rfl, g1, fun h => absurd h hg1, .inl rfl, fun h => absurd h hg1⟩

/-- Reading a record depends on its blocks only. -/
theorem read_same {m m' : Mem} (w : HRecord) (h : ∀ a ∈ ownBlocks w, m'.load a = m.load a) : w.read m' = w.read m := by
  have hs : ∀ p : Option Nat, (∀ a, p = some a → a ∈ ownBlocks w) → m'.string p = m.string p := by
    intro p hp
    cases p with
    | none => rfl
    | some a =>
      show (m'.load a >>= _) = (m.load a >>= _)
      rw [h a (hp a rfl)]
  have hv : w.readValue m' = w.readValue m := by
    unfold HRecord.readValue
    cases hn : w.numeric with
    | true => rfl
    | false =>
      cases ht : w.text with
      | none => rfl
      | some a =>
        show (m'.load a >>= _) = (m.load a >>= _)
        rw [h a (by simp [ownBlocks, hn, ht])]
  unfold HRecord.read
  rw [hv, hs w.unit (by intro a ha; simp [ownBlocks, ha]), hs w.function (by intro a ha; simp [ownBlocks, ha]), hs w.quantity (by intro a ha; simp [ownBlocks, ha])]

theorem lacking_ready {full n : NRecord} (h : Lacking full n) (hr : NReady full) : NReady n := by
  obtain ⟨v, f, d, t, s, u, q⟩ := h
  have ht := hr.terse
  have hu : (escape (n.unit.getD [])).length ≤ (escape (full.unit.getD [])).length := by
    rcases u with h | h <;> rw [h]
    · exact Nat.le_refl _
    · exact Nat.zero_le _
  have hq : (escape (n.quantity.getD [])).length ≤ (escape (full.quantity.getD [])).length := by
    rcases q with h | h <;> rw [h]
    · exact Nat.le_refl _
    · exact Nat.zero_le _
  have hn : normText n = normText full := by unfold normText; rw [v]
  refine ⟨⟨by rw [f]; exact hr.function, by rw [s]; exact hr.storage, by rw [t]; exact hr.tariff, by rw [d]; exact hr.device, ?_, ?_, ?_⟩, ?_⟩
  · rcases u with h | h <;> rw [h]
    · exact hr.unit
    · simp
  · rcases q with h | h <;> rw [h]
    · exact hr.quantity
    · simp
  · rw [v]; exact hr.value
  · unfold Terse at ht ⊢
    rw [hn, t]
    omega

/-- What is left of a record whose value text got lost. -/
def LostText (rs : List Record) (x : Nat × List Byte) : Prop := ∃ r ∈ rs, ∃ j, parseVariableRecord j r = .ok (none, some x.2)

theorem grow_id {b : XBuf} {junk : Nat → Byte} (h : ¬ (b.len ≤ b.mem.length ∧ b.mem.length - b.len < 1024)) : b.grow junk = b := by
  unfold XBuf.grow
  rw [if_neg h]

/-- The record loop on the heap. `all` is the whole record list. -/
theorem nrecordsOwned_runs (junk : Nat → Nat → Byte) (all : List Record) {m0 : Mem} (hm : MemOk m0) (rs : List Record) (hsub : ∀ r ∈ rs, r ∈ all)
    (h : ∀ r ∈ rs, Delivered r ∧ StorageOk r ∧ ∀ j n leak, parseVariableRecord j r = .ok (some n, leak) → NReady n)
    (start : Nat) (hc : start + rs.length < 2 ^ 31) (e : List Byte) (he : e.length = 768)
    (b : XBuf) (t : List Byte) (hb : Roomy b t) (p : Nat) (m : Mem) (news : List (Nat × List Byte)) (hg : Grown m0 m news)
    (hp : p ∈ news.map (·.1)) (hl : ∀ x ∈ news, x.1 ≠ p → LostText all x) :
    ∃ g m' news', nrecordsOwned junk rs start e b p m = .ok (g, m') ∧ Grown m0 m' news' ∧
      (match g with
       | none => ∀ x ∈ news', LostText all x
       | some (b', p') => p' ∈ news'.map (·.1) ∧ (∀ x ∈ news', x.1 ≠ p' → LostText all x) ∧
          ∃ ns, Pointwise (fun r n => ∃ j full leak, parseVariableRecord j r = .ok (full, leak) ∧ Printed full n) rs ns ∧
            Roomy b' (t ++ ((ns.zipIdx start).map fun p => normGroup p.2 p.1).flatMap Group.render)) ∧
      (Granting m → ∃ b' p', g = some (b', p') ∧ nrecordsXml junk rs start e b = .ok b') := by
  induction rs generalizing start e b t p m news with
  | nil => exact ⟨_, m, news, rfl, hg, ⟨hp, hl, [], .nil, by simpa using hb⟩, fun _ => ⟨b, p, rfl, rfl⟩⟩
  | cons r rs ih =>
    obtain ⟨c, h1, h2, h3⟩ := hb
    obtain ⟨hd, hst, hready⟩ := h r (List.mem_cons_self ..)
    have hc' : start + 1 + rs.length < 2 ^ 31 := by simp at hc; omega
    obtain ⟨x, leak, res, m1, own, hpr, hpo, g1, gr1, hand, handAll⟩ := variableOwned_runs (junk := junk start) hd hst (hg.ok hm)
    have gt := hg.trans g1
    -- the blocks of the record are not the buffer
    have hpown : p ∉ own.map (·.1) := by
      intro hin
      have hn := gt.nodup
      rw [List.map_append, List.nodup_append] at hn
      exact hn.2.2 p hin p hp rfl
    have hother : ∀ y ∈ own, y.1 ≠ p := fun y hy he => hpown (he ▸ List.mem_map_of_mem (f := fun x : Nat × List Byte => x.1) hy)
    -- releasing the record leaves only lost texts
    have release : ∀ (m2 : Mem) (ys : List (Nat × List Byte)), Grown m0 m2 ys → (∀ y ∈ own, y.1 ∈ ys.map (·.1)) →
        ∃ m3 zs, recordFree m2 res = .ok m3 ∧ Grown m0 m3 zs ∧ (∀ z ∈ zs, z ∈ ys) ∧ m3.answers = m2.answers ∧
          (∀ z ∈ zs, z.1 ∈ own.map (·.1) → z ∉ own ∨ LostText all z) ∧ (∀ y ∈ ys, y.1 ∉ own.map (·.1) → y ∈ zs) := by
      intro m2 ys gy hys
      cases res with
      | none =>
        refine ⟨m2, ys, rfl, gy, fun _ h => h, rfl, ?_, fun y hy _ => hy⟩
        intro z hz hzo
        rcases hand with rfl | ⟨rfl, a, s, hleak, rfl⟩
        · cases hzo
        · by_cases hzin : z ∈ [(a, s)]
          · refine .inr ⟨r, hsub r (List.mem_cons_self ..), junk start, ?_⟩
            rw [hpr, hleak, List.mem_singleton.mp hzin]
          · exact .inl hzin
      | some w =>
        obtain ⟨hperm, _⟩ := hand
        have hnd : (ownBlocks w).Nodup := hperm.nodup_iff.mpr g1.nodup
        obtain ⟨m3, e3, g3, a3⟩ := recordFree_grown hm gy w hnd (by
          intro a ha
          obtain ⟨y, hy, rfl⟩ := List.mem_map.mp (hperm.mem_iff.mp ha)
          exact hys y hy)
        refine ⟨m3, _, e3, g3, fun z hz => (List.mem_filter.mp hz).1, a3, ?_, ?_⟩
        · intro z hz hzo
          have := (List.mem_filter.mp hz).2
          simp only [decide_eq_true_eq] at this
          exact absurd (hperm.mem_iff.mpr hzo) this
        · intro y hy hyo
          refine List.mem_filter.mpr ⟨hy, ?_⟩
          simp only [decide_eq_true_eq]
          exact fun hin => hyo (hperm.mem_iff.mp hin)
    unfold nrecordsOwned
    rw [hpo, ok_bind]
    dsimp only
    -- growing the buffer
    obtain ⟨c', q1, q2, q3⟩ := grow_text (scratch (junk start) 3) h3 h1 (by omega)
    have grown : (∃ m2, growOwned (scratch (junk start) 3) b p m1 = .ok (none, m2) ∧ Grown m0 m2 (own ++ news) ∧ ¬ Granting m1) ∨
        (∃ m2 p' ys, growOwned (scratch (junk start) 3) b p m1 = .ok (some (b.grow (scratch (junk start) 3), p'), m2) ∧ Grown m0 m2 ys ∧
          (Granting m1 → Granting m2) ∧ p' ∈ ys.map (·.1) ∧ p' ∉ own.map (·.1) ∧ (∀ y ∈ own, y ∈ ys) ∧
          (∀ y ∈ ys, y.1 ≠ p' → y ∈ own ∨ LostText all y)) := by
      unfold growOwned
      by_cases hcond : b.len ≤ b.mem.length ∧ b.mem.length - b.len < 1024
      · rw [if_pos hcond]
        rcases alloc_cases m1 (b.grow (scratch (junk start) 3)).mem with ⟨m2, e2, g2, hg2⟩ | ⟨m2, e2, g2, hg2⟩
        · rw [e2]
          dsimp only
          have gg := gt.trans g2
          obtain ⟨m3, e3, g3, a3⟩ := free_grown hm gg p (by simp only [List.map_append, List.mem_append]; exact .inr (.inr hp))
          rw [e3, ok_bind]
          have hne : m1.next ∉ (own ++ news).map (·.1) := by
            intro hin
            obtain ⟨y, hy, hyn⟩ := List.mem_map.mp hin
            have := gt.young y hy
            omega
          refine .inr ⟨m3, m1.next, _, rfl, g3, fun hgr => granting_of_eq a3 (hg2 hgr), ?_, ?_, ?_, ?_⟩
          · refine List.mem_map.mpr ⟨(m1.next, (b.grow (scratch (junk start) 3)).mem), List.mem_filter.mpr ⟨by simp, ?_⟩, rfl⟩
            simp only [decide_eq_true_eq]
            intro heq
            apply hne
            rw [heq, List.map_append]
            exact List.mem_append_right _ hp
          · exact fun hin => hne (by rw [List.map_append]; exact List.mem_append_left _ hin)
          · intro y hy
            refine List.mem_filter.mpr ⟨by simp [hy], ?_⟩
            simp only [decide_eq_true_eq]
            exact hother y hy
          · intro y hy hyp
            obtain ⟨hy1, hy2⟩ := List.mem_filter.mp hy
            simp only [decide_eq_true_eq] at hy2
            simp only [List.mem_append, List.mem_singleton] at hy1
            rcases hy1 with rfl | hy1 | hy1
            · exact absurd rfl hyp
            · exact .inl hy1
            · exact .inr (hl y hy1 hy2)
        · rw [e2]
          exact .inl ⟨m2, rfl, gt.trans g2, hg2⟩
      · rw [if_neg hcond]
        refine .inr ⟨m1, p, own ++ news, by rw [grow_id hcond], gt, id, ?_, hpown, fun y hy => List.mem_append_left _ hy, ?_⟩
        · rw [List.map_append]; exact List.mem_append_right _ hp
        · intro y hy hyp
          rcases List.mem_append.mp hy with hy | hy
          · exact .inl hy
          · exact .inr (hl y hy hyp)
    rcases grown with ⟨m2, e2, g2, hng⟩ | ⟨m2, p', ys, e2, g2, gr2, hp', hpo', hown, hys⟩
    · -- realloc failed
      rw [e2, ok_bind]
      dsimp only
      obtain ⟨m3, zs, e3, g3, hzs, a3, hz1, hz2⟩ := release m2 _ g2 (fun y hy => by rw [List.map_append]; exact List.mem_append_left _ (List.mem_map_of_mem hy))
      rw [e3, ok_bind]
      have hpz : p ∈ zs.map (·.1) := by
        obtain ⟨y, hy, rfl⟩ := List.mem_map.mp hp
        exact List.mem_map_of_mem (hz2 y (List.mem_append_right _ hy) hpown)
      obtain ⟨m4, e4, g4, _⟩ := free_grown hm g3 p hpz
      rw [e4, ok_bind]
      refine ⟨none, m4, _, rfl, g4, ?_, fun hgr => absurd (gr1 hgr) hng⟩
      intro z hz
      obtain ⟨hz', hzp⟩ := List.mem_filter.mp hz
      simp only [decide_eq_true_eq] at hzp
      rcases List.mem_append.mp (hzs z hz') with hzo | hzn
      · rcases hz1 z hz' (List.mem_map_of_mem hzo) with hh | hh
        · exact absurd hzo hh
        · exact hh
      · exact hl z hzn hzp
    · rw [e2, ok_bind]
      dsimp only
      -- what is printed
      obtain ⟨n, hread, hn, hprint, hfull⟩ : ∃ n, readRecord m2 res = .ok n ∧ (∀ k, n = some k → NReady k) ∧ Printed x n ∧ (Granting m → n = x) := by
        cases res with
        | none =>
          refine ⟨none, rfl, by simp, .inl rfl, fun hgr => ?_⟩
          have := handAll hgr
          cases x with
          | none => rfl
          | some f => obtain ⟨w, hw, _⟩ := this; cases hw
        | some w =>
          obtain ⟨hperm, full, n, rfl, hrd, hlack⟩ := hand
          have hload : ∀ a ∈ ownBlocks w, m2.load a = m1.load a := by
            intro a ha
            obtain ⟨y, hy, hya⟩ := List.mem_map.mp (hperm.mem_iff.mp ha)
            have k1 : (a, y.2) ∈ m2.live := by
              rw [g2.live, ← hya]
              exact List.mem_append_left _ (hown y hy)
            have k2 : (a, y.2) ∈ m1.live := by
              rw [g1.live, ← hya]
              exact List.mem_append_left _ hy
            rw [load_live (g2.ok hm) k1, load_live (gt.ok hm) k2]
          refine ⟨some n, ?_, ?_, .inr ⟨full, n, rfl, rfl, hlack⟩, fun hgr => ?_⟩
          · show (w.read m2 >>= _) = _
            rw [read_same w hload, hrd, ok_bind]
          · intro k hk
            injection hk with hk
            subst hk
            exact lacking_ready hlack (hready _ _ _ hpr)
          · obtain ⟨w', hw', hrd'⟩ := handAll hgr
            injection hw' with hw'
            subst hw'
            rw [hrd] at hrd'
            injection hrd' with hrd'
            rw [hrd']
      rw [hread, ok_bind]
      obtain ⟨⟨b', e'⟩, hrun, l1, l2, l3⟩ := nrecord_runs q3 e he n hn start (by omega) q2
      rw [hrun, ok_bind]
      dsimp only at l1 l2 l3 ⊢
      obtain ⟨m3, zs, e3, g3, hzs, a3, hz1, hz2⟩ := release m2 ys g2 (fun y hy => List.mem_map_of_mem (hown y hy))
      rw [e3, ok_bind]
      have hpz : p' ∈ zs.map (·.1) := by
        obtain ⟨y, hy, rfl⟩ := List.mem_map.mp hp'
        exact List.mem_map_of_mem (hz2 y hy hpo')
      obtain ⟨g, m', news', k1, k2, k3, k4⟩ := ih (fun r hr => hsub r (List.mem_cons_of_mem _ hr)) (fun r hr => h r (List.mem_cons_of_mem _ hr)) (start + 1) hc' e' l1 b' _
        ⟨c', q1, l3, l2⟩ p' m3 zs g3 hpz (by
          intro z hz hzp
          rcases hys z (hzs z hz) hzp with hzo | hzl
          · rcases hz1 z hz (List.mem_map_of_mem hzo) with hh | hh
            · exact absurd hzo hh
            · exact hh
          · exact hzl)
      refine ⟨g, m', news', k1, k2, ?_, ?_⟩
      · cases g with
        | none => exact k3
        | some bp =>
          obtain ⟨b'', p''⟩ := bp
          obtain ⟨s1, s2, ns, s3, s4⟩ := k3
          refine ⟨s1, s2, n :: ns, .cons ⟨_, _, _, hpr, hprint⟩ s3, ?_⟩
          simpa [List.zipIdx_cons] using s4
      · intro hgr
        obtain ⟨bf, pf, hgf, hxml⟩ := k4 (granting_of_eq a3 (gr2 (gr1 hgr)))
        refine ⟨bf, pf, hgf, ?_⟩
        unfold nrecordsXml
        rw [hpr, ok_bind]
        dsimp only
        rw [← hfull hgr, hrun, ok_bind]
        exact hxml

/-- Writing into a new block. -/
theorem grown_store {m m' : Mem} {news : List (Nat × List Byte)} (hm : MemOk m) (g : Grown m m' news) {p : Nat} (hp : p ∈ news.map (·.1)) (c : List Byte) :
    Grown m (m'.store p c) (news.map fun x => if x.1 = p then (p, c) else x) := by
  have hfst : ∀ x : Nat × List Byte, (if x.1 = p then (p, c) else x).1 = x.1 := by
    intro x
    split
    · rename_i h; exact h.symm
    · rfl
  have hmap : (news.map fun x => if x.1 = p then (p, c) else x).map (·.1) = news.map (·.1) := by
    rw [List.map_map]
    exact List.map_congr_left fun x _ => hfst x
  obtain ⟨y, hy, hyp⟩ := List.mem_map.mp hp
  have hpge := g.old y hy
  rw [hyp] at hpge
  refine ⟨?_, ?_, by rw [hmap]; exact g.nodup, ?_, g.next⟩
  · show m'.live.map _ = _
    rw [g.live, List.map_append]
    congr 1
    refine (List.map_congr_left fun x hx => ?_).trans (List.map_id _)
    have := hm.2 x hx
    rw [if_neg (by omega)]
    rfl
  · intro x hx
    obtain ⟨z, hz, rfl⟩ := List.mem_map.mp hx
    rw [hfst]
    exact g.old z hz
  · intro x hx
    obtain ⟨z, hz, rfl⟩ := List.mem_map.mp hx
    rw [hfst]
    exact g.young z hz

end Mbus
