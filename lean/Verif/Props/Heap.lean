import Verif.Spec.Heap
import Verif.Lemmas.Units
import Verif.Lemmas.Xml
/- Property theorems C61 (record lists and frame chains), C62 (slave register), C63 (error string). -/
namespace Mbus
open Spec

/-! ### linked lists -/

theorem Spec.Linked.det {α : Type} {h : Heap α} {p : Option Nat} {xs ys : List (Nat × α)} (hx : Linked h p xs) (hy : Linked h p ys) : xs = ys := by
  induction hx generalizing ys with
  | nil => cases hy; rfl
  | cons e _ ih =>
    cases hy with
    | cons e' h' =>
      rw [e] at e'
      injection e' with e1 e2
      subst e1 e2
      rw [ih h']

theorem Spec.Linked.suffix {α : Type} {h : Heap α} {p : Option Nat} {xs : List (Nat × α)} (hx : Linked h p xs) (a : Nat) (ha : a ∈ xs.map (·.1)) :
    ∃ ys, Linked h (some a) ys ∧ ys.length ≤ xs.length := by
  induction hx with
  | nil => cases ha
  | @cons b v n ys e hl ih =>
    rw [List.map_cons] at ha
    rcases List.mem_cons.mp ha with rfl | ha
    · exact ⟨_, .cons e hl, Nat.le_refl _⟩
    · obtain ⟨zs, h1, h2⟩ := ih ha
      exact ⟨zs, h1, by rw [List.length_cons]; omega⟩

/-- A finite list visits no object twice. -/
theorem Spec.Linked.nodup {α : Type} {h : Heap α} {p : Option Nat} {xs : List (Nat × α)} (hx : Linked h p xs) : (xs.map (·.1)).Nodup := by
  induction hx with
  | nil => exact .nil
  | @cons a v n ys e hl ih =>
    rw [List.map_cons]
    refine List.nodup_cons.mpr ⟨?_, ih⟩
    intro hm
    obtain ⟨zs, h1, h2⟩ := hl.suffix a hm
    have := (Linked.cons e hl).det h1
    rw [← this] at h2
    simp at h2
    omega

theorem Spec.Linked.frame {α : Type} {h h' : Heap α} {p : Option Nat} {xs : List (Nat × α)} (hx : Linked h p xs) (hs : ∀ a ∈ xs.map (·.1), h' a = h a) :
    Linked h' p xs := by
  induction hx with
  | nil => exact .nil
  | @cons a v n ys e hl ih =>
    exact .cons (by rw [hs a (by simp)]; exact e) (ih fun b hb => hs b (by rw [List.map_cons]; exact List.mem_cons_of_mem _ hb))

theorem put_same {α : Type} (h : Heap α) (a : Nat) (c : Cell α) : h.put a c a = c := if_pos rfl
theorem put_other {α : Type} (h : Heap α) (a b : Nat) (c : Cell α) (hb : b ≠ a) : h.put a c b = h b := if_neg hb

/-- The last element of a non-empty list, and what changing its `next` does. -/
theorem lastRecord_spec {α : Type} {h : Heap α} {a : Nat} {xs : List (Nat × α)} (hx : Linked h (some a) xs) (fuel : Nat) (hf : xs.length ≤ fuel) :
    ∃ l v, lastRecord fuel h a = .ok l ∧ h l = .live none v ∧ l ∈ xs.map (·.1) ∧
      ∀ (p : Option Nat) (ys : List (Nat × α)), Linked (h.put l (.live p v)) p ys → Linked (h.put l (.live p v)) (some a) (xs ++ ys) := by
  induction xs generalizing a fuel with
  | nil => cases hx
  | cons x xs ih =>
    have hnd := hx.nodup
    cases hx with
    | @cons _ v n _ e hl =>
      cases fuel with
      | zero => simp at hf
      | succ fuel =>
        have hload : h.load a = .ok (n, v) := by unfold Heap.load; rw [e]
        cases n with
        | none =>
          cases hl
          refine ⟨a, v, ?_, e, by simp, ?_⟩
          · unfold lastRecord; rw [hload]; rfl
          · intro p ys hp
            exact .cons (put_same ..) hp
        | some b =>
          obtain ⟨l, w, h1, h2, h3, h4⟩ := ih hl fuel (by simp at hf; omega)
          refine ⟨l, w, ?_, h2, ?_, ?_⟩
          · unfold lastRecord; rw [hload]; exact h1
          · rw [List.map_cons]; exact List.mem_cons_of_mem _ h3
          · intro p ys hp
            have hne : a ≠ l := by
              rintro rfl
              exact (List.nodup_cons.mp hnd).1 h3
            exact .cons (by rw [put_other _ _ _ _ hne]; exact e) (h4 p ys hp)

/-- C61: `mbus_data_record_append` adds the record (with everything linked behind it) at the end of the list and keeps the others, in
order; no object outside the list is written, and no other object is read or written. -/
theorem C61_append {α : Type} (h : Heap α) (root : Option Nat) (p : Nat) (xs ys : List (Nat × α)) (hx : Linked h root xs) (hy : Linked h (some p) ys)
    (hdis : ∀ a ∈ xs.map (·.1), a ∉ ys.map (·.1)) (fuel : Nat) (hf : xs.length ≤ fuel) :
    ∃ h' root', recordAppend fuel h root (some p) = .ok (h', root') ∧ Linked h' root' (xs ++ ys) ∧ SameOutside h h' (xs.map (·.1)) := by
  cases root with
  | none =>
    cases hx
    exact ⟨h, some p, rfl, hy, fun _ _ => rfl⟩
  | some a =>
    obtain ⟨l, v, h1, h2, h3, h4⟩ := lastRecord_spec hx fuel hf
    refine ⟨h.put l (.live (some p) v), some a, ?_, ?_, ?_⟩
    · unfold recordAppend
      dsimp only
      rw [h1, ok_bind]
      unfold Heap.link Heap.load
      rw [h2]
      rfl
    · refine h4 (some p) ys (hy.frame ?_)
      intro b hb
      exact put_other _ _ _ _ (by rintro rfl; exact hdis _ h3 hb)
    · intro b hb
      exact put_other _ _ _ _ (by rintro rfl; exact hb h3)

/-- C61: appending NULL does nothing. -/
theorem C61_append_null {α : Type} (fuel : Nat) (h : Heap α) (root : Option Nat) : recordAppend fuel h root none = .ok (h, root) := rfl

theorem released_cons {α : Type} {h h' : Heap α} {a : Nat} {as : List Nat} (ha : a ∉ as) (hr : Released (h.put a .freed) h' as) : Released h h' (a :: as) := by
  obtain ⟨h1, h2⟩ := hr
  refine ⟨?_, ?_⟩
  · intro b hb
    rcases List.mem_cons.mp hb with rfl | hb
    · rw [h2 b ha, put_same]
    · exact h1 b hb
  · intro b hb
    rw [h2 b (fun h => hb (List.mem_cons_of_mem _ h)), put_other _ _ _ _ (fun h => hb (by rw [h]; exact List.mem_cons_self ..))]

/-- C61: `mbus_data_record_free` releases every record of the list exactly once (a second release would be a fault), reads none after its release and
touches nothing else. -/
theorem C61_free {α : Type} (h : Heap α) (p : Option Nat) (xs : List (Nat × α)) (hx : Linked h p xs) (fuel : Nat) (hf : xs.length ≤ fuel) :
    ∃ h', recordListFree fuel h p = .ok h' ∧ Released h h' (xs.map (·.1)) := by
  induction xs generalizing h p fuel with
  | nil =>
    cases hx
    refine ⟨h, ?_, by simp [Released, SameOutside]⟩
    unfold recordListFree
    rfl
  | cons x xs ih =>
    have hnd := hx.nodup
    cases hx with
    | @cons a v n _ e hl =>
      cases fuel with
      | zero => simp at hf
      | succ fuel =>
        have hload : h.load a = .ok (n, v) := by unfold Heap.load; rw [e]
        have hfree : h.free a = .ok (h.put a .freed) := by unfold Heap.free; rw [e]
        have hnot := (List.nodup_cons.mp hnd).1
        have hl' : Linked (h.put a .freed) n xs := hl.frame fun b hb => put_other _ _ _ _ (by rintro rfl; exact hnot hb)
        obtain ⟨h', h1, h2⟩ := ih (h.put a .freed) n hl' fuel (by simp at hf; omega)
        refine ⟨h', ?_, released_cons hnot h2⟩
        unfold recordListFree
        rw [hload, ok_bind]
        dsimp only
        rw [hfree, ok_bind]
        cases n with
        | none => unfold recordListFree at h1; exact h1
        | some b => exact h1

/-- C61: the same for `mbus_frame_free` and a chain of telegrams; the return value tells whether there was a frame. -/
theorem C61_frame_free {α : Type} (h : Heap α) (p : Option Nat) (xs : List (Nat × α)) (hx : Linked h p xs) (fuel : Nat) (hf : xs.length ≤ fuel) :
    ∃ h', frameFree fuel h p = .ok (h', if p = none then -1 else 0) ∧ Released h h' (xs.map (·.1)) := by
  induction xs generalizing h p fuel with
  | nil =>
    cases hx
    refine ⟨h, ?_, by simp [Released, SameOutside]⟩
    unfold frameFree
    rfl
  | cons x xs ih =>
    have hnd := hx.nodup
    cases hx with
    | @cons a v n _ e hl =>
      cases fuel with
      | zero => simp at hf
      | succ fuel =>
        have hload : h.load a = .ok (n, v) := by unfold Heap.load; rw [e]
        have hnot := (List.nodup_cons.mp hnd).1
        obtain ⟨h', h1, h2, h3⟩ := ih h n hl fuel (by simp at hf; omega)
        have hfree : h'.free a = .ok (h'.put a .freed) := by unfold Heap.free; rw [h3 a hnot, e]
        refine ⟨h'.put a .freed, ?_, ?_, ?_⟩
        · unfold frameFree
          rw [hload, ok_bind]
          dsimp only
          cases n with
          | none =>
            unfold frameFree at h1
            injection h1 with h1
            injection h1 with h1
            dsimp only
            rw [ok_bind, h1, hfree]
            rfl
          | some b =>
            dsimp only
            rw [h1, ok_bind]
            dsimp only
            rw [ok_bind, hfree]
            rfl
        · intro b hb
          rcases List.mem_cons.mp hb with rfl | hb
          · exact put_same ..
          · rw [put_other _ _ _ _ (fun h => hnot (by rw [← h]; exact hb))]
            exact h2 b hb
        · intro b hb
          rw [put_other _ _ _ _ (fun h => hb (by rw [h]; exact List.mem_cons_self ..))]
          exact h3 b (fun h => hb (List.mem_cons_of_mem _ h))

/-- C61, all histories: whatever addresses `malloc` returns, a list built by repeatedly appending new records holds exactly the appended
records, in order. -/
theorem C61_built {α : Type} (h : Heap α) (root : Option Nat) (xs : List (Nat × α)) (hb : Built h root xs) : Linked h root xs := by
  induction hb with
  | empty => exact .nil
  | @append h root xs h' root' a v fuel _ hfresh hap ih =>
    have hnot : a ∉ xs.map (·.1) := by
      intro hm
      obtain ⟨ys, hl, _⟩ := ih.suffix a hm
      cases hl with
      | cons e _ => exact hfresh _ _ e
    have hx : Linked (h.new a v) root xs := ih.frame fun b hb => put_other _ _ _ _ (by rintro rfl; exact hnot hb)
    have hy : Linked (h.new a v) (some a) [(a, v)] := .cons (put_same ..) .nil
    have hdis : ∀ b ∈ xs.map (·.1), b ∉ [(a, v)].map (·.1) := by
      intro b hb hm
      simp at hm
      subst hm
      exact hnot hb
    by_cases hf : xs.length ≤ fuel
    · obtain ⟨h2, r2, e, hl, _⟩ := C61_append _ root a xs _ hx hy hdis fuel hf
      rw [e] at hap
      injection hap with hap
      injection hap with h3 h4
      subst h3 h4
      exact hl
    · exfalso
      cases root with
      | none => cases ih; simp at hf
      | some r =>
        have key : ∀ (h : Heap α) (fuel : Nat) (r : Nat) (xs : List (Nat × α)), Linked h (some r) xs → ¬ xs.length ≤ fuel → lastRecord fuel h r = .error .outOfFuel := by
          intro h fuel
          induction fuel with
          | zero => intros; rfl
          | succ fuel ih =>
            intro r xs hl hlen
            cases hl with
            | @cons _ w n ys e hl =>
              unfold lastRecord Heap.load
              rw [e, ok_bind]
              cases n with
              | none => cases hl; simp at hlen
              | some b => exact ih b ys hl (by simp at hlen; omega)
        unfold recordAppend at hap
        dsimp only at hap
        rw [key _ _ _ _ hx hf] at hap
        cases hap

/-- C61, all histories: such a step is always possible, and `mbus_frame_data_free` on the structure holding the list releases
all its records and the structure itself, exactly once each, and nothing else. -/
theorem C61_history {α : Type} (h : Heap α) (root : Option Nat) (xs : List (Nat × α)) (hb : Built h root xs) (fuel : Nat) (hf : xs.length ≤ fuel) :
    (∀ a v, (∀ n w, h a ≠ .live n w) → ∃ h' root', recordAppend fuel (h.new a v) root (some a) = .ok (h', root') ∧ Built h' root' (xs ++ [(a, v)])) ∧
    ∀ (d : Heap (Option Nat)) (p : Nat) (n : Option Nat), d p = .live n root →
      ∃ h', frameDataFree fuel d h (some p) = .ok (d.put p .freed, h') ∧ Released h h' (xs.map (·.1)) := by
  have hl := C61_built h root xs hb
  constructor
  · intro a v hfresh
    have hnot : a ∉ xs.map (·.1) := by
      intro hm
      obtain ⟨ys, hl, _⟩ := hl.suffix a hm
      cases hl with
      | cons e _ => exact hfresh _ _ e
    obtain ⟨h', root', e, _, _⟩ := C61_append (h.new a v) root a xs [(a, v)]
      (hl.frame fun b hb => put_other _ _ _ _ (by rintro rfl; exact hnot hb)) (.cons (put_same ..) .nil)
      (by intro b hb hm; simp at hm; subst hm; exact hnot hb) fuel hf
    exact ⟨h', root', e, .append a v fuel hb hfresh e⟩
  · intro d p n hp
    obtain ⟨h', e, hr⟩ := C61_free h root xs hl fuel hf
    refine ⟨h', ?_, hr⟩
    have hload : d.load p = .ok (n, root) := by unfold Heap.load; rw [hp]
    have hfree : d.free p = .ok (d.put p .freed) := by unfold Heap.free; rw [hp]
    unfold frameDataFree
    dsimp only
    rw [hload, ok_bind]
    dsimp only
    cases root with
    | none =>
      unfold recordListFree at e
      injection e with e
      dsimp only
      rw [ok_bind, e, hfree, ok_bind]
    | some r =>
      dsimp only
      rw [e, ok_bind, hfree, ok_bind]

/-- A heap without objects. -/
def noHeap : Heap Nat := fun _ => .unused

/-- a list of two records at the addresses 8 and 3 -/
def twoRecs : Heap Nat := ((noHeap.new 8 50).new 3 60).put 8 (.live (some 3) 50)

theorem twoRecs_built : Built twoRecs (some 8) [(8, 50), (3, 60)] := by
  have h1 : Built (noHeap.new 8 50) (some 8) ([] ++ [(8, 50)]) := .append 8 50 0 (.empty _) (by intro n w h; cases h) rfl
  exact Built.append 3 60 1 h1 (by intro n w h; cases h) rfl

example := C61_built twoRecs (some 8) _ twoRecs_built
example := C61_free twoRecs (some 8) _ (C61_built _ _ _ twoRecs_built) 2 (by decide)
example := C61_frame_free twoRecs (some 8) _ (C61_built _ _ _ twoRecs_built) 2 (by decide)
/-- a third record, at address 5, appended to the two -/
example := C61_append (twoRecs.new 5 70) (some 8) 5 [(8, 50), (3, 60)] [(5, 70)]
  (.cons (next := some 3) (by rfl) (.cons (next := none) (by rfl) .nil))
  (.cons (next := none) (by rfl) .nil) (by decide) 2 (by decide)

/-- Two records built at the addresses 8 and 3, in this order. -/
example : Built (((noHeap.new 8 50).new 3 60).put 8 (.live (some 3) 50)) (some 8) [(8, 50), (3, 60)] := by
  have h1 : Built (noHeap.new 8 50) (some 8) ([] ++ [(8, 50)]) := .append 8 50 0 (.empty _) (by intro n w h; cases h) rfl
  exact Built.append 3 60 1 h1 (by intro n w h; cases h) rfl

/-- Why the appended record must not be in the list already: appending it a second time makes the list circular, and releasing it then
reads a released record. -/
example : (do
    let (h, root) ← recordAppend 5 (noHeap.new 8 50) none (some 8)
    let (h, root) ← recordAppend 5 h root (some 8)
    recordListFree 5 h root) = .error .useAfterFree := rfl

/-! ### slave register -/

/-- C62: `mbus_slave_data_get` returns an entry exactly for indices below 250; it lies inside the register, and different
indices give entries without common bytes. -/
theorem C62_slave_register (base i : Nat) :
    (i < 250 ↔ ∃ p, slaveDataGet base i = some p) ∧
    (∀ p, slaveDataGet base i = some p → base ≤ p ∧ p + 8 ≤ base + 250 * 8) ∧
    ∀ j p q, slaveDataGet base i = some p → slaveDataGet base j = some q → i ≠ j → p + 8 ≤ q ∨ q + 8 ≤ p := by
  unfold slaveDataGet MAX_PRIMARY_SLAVES SLAVE_DATA_SIZE
  refine ⟨?_, ?_, ?_⟩
  · constructor
    · intro h; exact ⟨_, if_pos h⟩
    · rintro ⟨p, h⟩
      by_cases hi : i < 250
      · exact hi
      · rw [if_neg hi] at h; cases h
  · intro p h
    by_cases hi : i < 250
    · rw [if_pos hi] at h; injection h with h; omega
    · rw [if_neg hi] at h; cases h
  · intro j p q h1 h2 hne
    by_cases hi : i < 250
    · by_cases hj : j < 250
      · rw [if_pos hi] at h1
        rw [if_pos hj] at h2
        injection h1 with h1
        injection h2 with h2
        omega
      · rw [if_neg hj] at h2; cases h2
    · rw [if_neg hi] at h1; cases h1

example : slaveDataGet 1000 249 = some 2992 ∧ slaveDataGet 1000 250 = none := by decide

/-! ### error string -/

theorem snprintf_all (e s : List Byte) (he : e.length = 512) (hs : (0 : Byte) ∉ s) :
    ∃ e', snprintfAt e 0 e.length s = .ok e' ∧ e'.length = 512 ∧ errorStr e' = .ok (s.take 511) := by
  unfold snprintfAt
  rw [if_neg (by omega), he]
  dsimp only
  have hl : (s.take (512 - 1) ++ [(0 : Byte)]).length ≤ 512 := by simp; omega
  rw [if_pos (by omega)]
  refine ⟨_, rfl, by simp; omega, ?_⟩
  unfold errorStr
  rw [cstr_prefix (s.take 511) _ ⟨e.drop (0 + (s.take (512 - 1) ++ [(0 : Byte)]).length), by simp⟩, upToNul_eq]
  intro h
  exact hs (List.mem_of_mem_take h)

/-- C63: after every history of `mbus_error_str_set` (with any messages, or NULL) and `mbus_error_reset` calls, `mbus_error_str()` is a terminated string:
the most recent message, cut to 511 characters ("" before the first call). -/
theorem C63_error_string (cs : List ErrorCall) (hcs : ∀ m, ErrorCall.set m ∈ cs → (0 : Byte) ∉ m) :
    ∃ e, cs.foldlM runError errorStrInit = .ok e ∧ e.length = 512 ∧ errorStr e = .ok (lastMessage [] cs) := by
  have key : ∀ (cs : List ErrorCall) (e t : List Byte), (∀ m, ErrorCall.set m ∈ cs → (0 : Byte) ∉ m) → e.length = 512 → errorStr e = .ok t →
      ∃ e', cs.foldlM runError e = .ok e' ∧ e'.length = 512 ∧ errorStr e' = .ok (lastMessage t cs) := by
    intro cs
    induction cs with
    | nil => intro e t _ he ht; exact ⟨e, rfl, he, ht⟩
    | cons c cs ih =>
      intro e t hm he ht
      rw [List.foldlM_cons]
      have hm' : ∀ m, ErrorCall.set m ∈ cs → (0 : Byte) ∉ m := fun m h => hm m (List.mem_cons_of_mem _ h)
      cases c with
      | set m =>
        have h0 := hm m (List.mem_cons_self ..)
        obtain ⟨e', h1, h2, h3⟩ := snprintf_all e m he h0
        obtain ⟨e2, k1, k2, k3⟩ := ih e' _ hm' h2 h3
        refine ⟨e2, ?_, k2, k3⟩
        simp only [runError, errorStrSet]
        rw [cstr_prefix m _ (List.prefix_refl _), upToNul_eq m h0, ok_bind, h1, ok_bind, k1]
      | setNull =>
        obtain ⟨e2, k1, k2, k3⟩ := ih e t hm' he ht
        exact ⟨e2, k1, k2, k3⟩
      | reset =>
        obtain ⟨e', h1, h2, h3⟩ := snprintf_all e (cs! "no errors") he (by decide)
        obtain ⟨e2, k1, k2, k3⟩ := ih e' _ hm' h2 h3
        refine ⟨e2, ?_, k2, k3⟩
        simp only [runError, errorReset]
        rw [h1, ok_bind, k1]
  exact key cs errorStrInit [] hcs List.length_replicate (by unfold errorStr; rfl)

/-- A history with a message of 600 characters that is cut. -/
example : ∃ e, [ErrorCall.reset, .set (List.replicate 600 65), .setNull].foldlM runError errorStrInit = .ok e ∧ e.length = 512 ∧ errorStr e = .ok (List.replicate 511 65) := by
  obtain ⟨e, h1, h2, h3⟩ := C63_error_string [ErrorCall.reset, .set (List.replicate 600 65), .setNull] (by
    intro m h
    have : m = List.replicate 600 65 := by
      rcases List.mem_cons.mp h with h | h
      · cases h
      · rcases List.mem_cons.mp h with h | h
        · injection h
        · rcases List.mem_cons.mp h with h | h <;> cases h
    rw [this]
    intro h0
    exact absurd (List.mem_replicate.mp h0).2 (by decide))
  refine ⟨e, h1, h2, ?_⟩
  rw [h3]
  show Except.ok ((List.replicate 600 65).take 511) = _
  rw [List.take_replicate]
  rfl

end Mbus
