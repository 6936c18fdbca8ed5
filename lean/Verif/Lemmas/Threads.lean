import Verif.Spec.Threads
import Verif.Lemmas.StaticsXml
namespace Mbus
open Spec

/-- a piece of code alone, to the end -/
def Prog.exec {α : Type} : Prog α → Statics → C (α × Statics)
  | .done a, s => .ok (a, s)
  | .fault f, _ => .error f
  | .load b i k, s => if i < b.cap then (k ((s b).getD i 0)).exec s else .error (.oobRead b.cap i)
  | .store b i v k, s => if i < b.cap then k.exec (s.set b ((s b).set i v)) else .error (.oobWrite b.cap i)

theorem exec_bind {α β : Type} (p : Prog α) (k : α → Prog β) (s : Statics) : (p >>= k).exec s = p.exec s >>= fun x => (k x.1).exec x.2 := by
  show (p.bind k).exec s = _
  induction p generalizing s with
  | done a => rfl
  | fault f => rfl
  | load b i g ih =>
    show (if i < b.cap then ((g _).bind k).exec s else _) = (if i < b.cap then (g _).exec s else _) >>= _
    split
    · exact ih _ s
    · rfl
  | store b i v g ih =>
    show (if i < b.cap then (g.bind k).exec _ else _) = (if i < b.cap then g.exec _ else _) >>= _
    split
    · exact ih _
    · rfl

theorem exec_then {α β : Type} {p : Prog α} {k : α → Prog β} {s s' : Statics} {a : α} (h : p.exec s = .ok (a, s')) : (p >>= k).exec s = (k a).exec s' := by
  rw [exec_bind, h, ok_bind]

theorem exec_then' {α β : Type} {p : Prog α} {k : α → Prog β} {s s' : Statics} {a : α} (h : p.exec s = .ok (a, s')) : (p.bind k).exec s = (k a).exec s' := exec_then h

theorem exec_lift {α : Type} {x : C α} {a : α} (h : x = .ok a) (s : Statics) : (pLift x).exec s = .ok (a, s) := by subst h; rfl

theorem set_twice (s : Statics) (b : SBuf) (m n : List Byte) : (s.set b m).set b n = s.set b n := by
  funext c
  by_cases h : c = b
  · subst h; rw [set_same, set_same]
  · rw [set_other _ _ h, set_other _ _ h, set_other _ _ h]

theorem statics_set_self (s : Statics) (b : SBuf) : s.set b (s b) = s := by
  funext c
  by_cases h : c = b
  · subst h; rw [set_same]
  · rw [set_other _ _ h]

theorem set_swap (s : Statics) {b c : SBuf} (m n : List Byte) (h : b ≠ c) : (s.set b m).set c n = (s.set c n).set b m := by
  funext d
  by_cases hc : d = c
  · subst hc; rw [set_same, set_other _ _ (Ne.symm h), set_same]
  · rw [set_other _ _ hc]
    by_cases hb : d = b
    · subst hb; rw [set_same, set_same]
    · rw [set_other _ _ hb, set_other _ _ hb, set_other _ _ hc]

theorem exec_sized {α : Type} (p : Prog α) {s : Statics} (hs : Sized s) {a : α} {s' : Statics} (h : p.exec s = .ok (a, s')) : Sized s' := by
  induction p generalizing s with
  | done a => injection h with h; injection h with _ h; exact h ▸ hs
  | fault f => cases h
  | load b i k ih =>
    rw [Prog.exec] at h
    split at h
    · exact ih _ hs h
    · cases h
  | store b i v k ih =>
    rw [Prog.exec] at h
    split at h
    · exact ih (sized_set hs b _ (by rw [List.length_set]; exact hs b)) h
    · cases h

theorem exec_bytes (b : SBuf) (t : List Byte) : ∀ (i : Nat) (s : Statics), Sized s → i + t.length ≤ b.cap →
    (pBytes b i t).exec s = .ok ((), s.set b ((s b).take i ++ t ++ (s b).drop (i + t.length))) := by
  induction t with
  | nil =>
    intro i s hs h
    show Except.ok ((), s) = _
    simp [statics_set_self]
  | cons v t ih =>
    intro i s hs h
    have hl := hs b
    rw [List.length_cons] at h
    show (if i < b.cap then (pBytes b (i + 1) t).exec _ else _) = _
    rw [if_pos (by omega), ih (i + 1) _ (sized_set hs b _ (by rw [List.length_set]; exact hl)) (by omega), set_twice, set_same]
    congr 3
    rw [List.length_cons, List.take_set, List.drop_set_of_lt (by omega), Nat.add_right_comm i 1, ← Nat.add_assoc]
    congr 1
    rw [show v :: t = [v] ++ t from rfl, ← List.append_assoc]
    congr 1
    apply List.ext_getElem
    · simp; omega
    · intro j h1 h2
      rw [List.getElem_set]
      simp only [List.length_set, List.length_take] at h1
      by_cases hj : i = j
      · subst hj
        rw [if_pos rfl, List.getElem_append_right (by simp; omega)]
        simp
      · rw [if_neg hj, List.getElem_append_left (by simp; omega)]
        simp

theorem exec_print {s s' : Statics} {b : SBuf} {args : List Ptr} {t : List Byte} (hs : Sized s) (h : s.print b args t = .ok s') : (pPrint b args t).exec s = .ok ((), s') := by
  unfold Statics.print at h
  unfold pPrint
  split at h
  · cases h
  · rename_i hc
    split
    · rename_i hc'
      exact absurd hc' hc
    obtain ⟨m, hm, h⟩ := bind_eq_ok.mp h
    injection h with h
    subst h
    have hp := b.cap_pos
    unfold snprintfAt at hm
    rw [if_neg (by omega)] at hm
    dsimp only at hm
    split at hm
    · rename_i hlen
      injection hm with hm
      subst hm
      rw [hs b] at hlen
      exact exec_bytes b _ 0 s hs hlen
    · cases hm

theorem exec_string (b : SBuf) (s : Statics) (hs : Sized s) : ∀ (n i : Nat) (t : List Byte), i + n = b.cap → cstr ((s b).drop i) = .ok t → (pString b n i).exec s = .ok (t, s) := by
  intro n
  induction n with
  | zero =>
    intro i t h1 h2
    rw [List.drop_of_length_le (by rw [hs b]; omega)] at h2
    cases h2
  | succ n ih =>
    intro i t h1 h2
    have hl := hs b
    show (if i < b.cap then (if (s b).getD i 0 = 0 then Prog.done [] else _ : Prog (List Byte)).exec s else _) = _
    rw [if_pos (by omega)]
    have hd : (s b).drop i = (s b).getD i 0 :: (s b).drop (i + 1) := by
      rw [List.drop_eq_getElem_cons (by omega)]
      congr 1
      rw [List.getD_eq_getElem?_getD, List.getElem?_eq_getElem (by omega)]
      rfl
    rw [hd] at h2
    generalize (s b).getD i 0 = v at h2 ⊢
    unfold cstr at h2
    by_cases hv : v = 0
    · subst hv
      rw [if_pos (List.mem_cons_self ..), List.takeWhile_cons_of_neg (by decide)] at h2
      injection h2 with h2
      subst h2
      rfl
    · rw [if_neg hv]
      split at h2
      · rename_i hm
        have hm' : (0 : Byte) ∈ (s b).drop (i + 1) := by
          rcases List.mem_cons.mp hm with h | h
          · exact absurd h.symm hv
          · exact h
        injection h2 with h2
        rw [List.takeWhile_cons_of_pos (by simpa using hv)] at h2
        subst h2
        rw [exec_then' (ih (i + 1) _ (by omega) (by unfold cstr; rw [if_pos hm']))]
        rfl
      · cases h2

theorem exec_read {s : Statics} (hs : Sized s) {p : Ptr} {t : List Byte} (h : s.read p = .ok t) : (pRead p).exec s = .ok (t, s) := by
  cases p with
  | const u => injection h with h; subst h; rfl
  | null => cases h
  | buf b => exact exec_string b s hs b.cap 0 t (by omega) h

theorem exec_load (b : SBuf) (s : Statics) (hs : Sized s) : ∀ (n i : Nat), i + n = b.cap → (pLoad b n i).exec s = .ok ((s b).drop i, s) := by
  intro n
  induction n with
  | zero =>
    intro i h1
    rw [List.drop_of_length_le (by rw [hs b]; omega)]
    rfl
  | succ n ih =>
    intro i h1
    have hl := hs b
    show (if i < b.cap then ((pLoad b n (i + 1)).bind _).exec s else _) = _
    rw [if_pos (by omega), exec_then' (ih (i + 1) (by omega))]
    show Except.ok (_ :: _, s) = _
    rw [List.drop_eq_getElem_cons (i := i) (by omega), List.getD_eq_getElem?_getD, List.getElem?_eq_getElem (by omega)]
    rfl

theorem exec_update (b : SBuf) : ∀ (old new : List Byte) (live : Bool) (pre : List Byte) (s : Statics), Sized s → s b = pre ++ old → old.length = new.length →
    (pUpdate b pre.length live old new).exec s = .ok ((), s.set b (pre ++ new)) := by
  intro old
  induction old with
  | nil =>
    intro new live pre s hs h hl
    cases new with
    | cons => cases hl
    | nil =>
      rw [pUpdate]
      · rw [← h, statics_set_self]; rfl
      · simp
  | cons o old ih =>
    intro new live pre s hs h hl
    cases new with
    | nil => cases hl
    | cons n new =>
      have hb := hs b
      rw [h, List.length_append, List.length_cons] at hb
      rw [List.length_cons, List.length_cons] at hl
      rw [pUpdate]
      have step : ∀ (live : Bool) (s1 : Statics), Sized s1 → s1 b = pre ++ n :: old → (∀ m, s1.set b m = s.set b m) →
          (pUpdate b (pre.length + 1) live old new).exec s1 = .ok ((), s.set b (pre ++ n :: new)) := by
        intro live s1 hs1 h1 hm
        have := ih new live (pre ++ [n]) s1 hs1 (by rw [h1, List.append_assoc]; rfl) (by omega)
        rw [List.length_append, List.append_assoc, hm] at this
        exact this
      split
      · show (if pre.length < b.cap then (pUpdate b _ _ old new).exec _ else _) = _
        rw [if_pos (by omega)]
        refine step _ _ (sized_set hs b _ (by rw [List.length_set]; exact hs b)) ?_ (fun m => set_twice ..)
        rw [set_same, h]
        simp
      · rename_i hn
        rw [not_or, Decidable.not_not] at hn
        refine step _ s hs ?_ (fun m => rfl)
        rw [h, hn.2]

theorem put_length {b b' : XBuf} {t : List Byte} (h : b.put t = .ok b') : b'.mem.length = b.mem.length := by
  unfold XBuf.put at h
  split at h
  · cases h
  · obtain ⟨m, hm, h⟩ := bind_eq_ok.mp h
    injection h with h
    subst h
    unfold snprintfAt at hm
    split at hm
    · injection hm with hm
      subst hm
      rfl
    · dsimp only at hm
      split at hm
      · rename_i hl
        injection hm with hm
        subst hm
        show (_ : List Byte).length = b.mem.length
        simp only [List.length_append, List.length_take, List.length_drop] at hl ⊢
        omega
      · cases hm

theorem exec_put {x : SBuf} {b b' : XBuf} {t : List Byte} (h : b.put t = .ok b') (hb : b.mem.length = x.cap) {s : Statics} (hs : Sized s) :
    (pPut x b.len t).exec (s.set x b.mem) = .ok (b'.len, s.set x b'.mem) := by
  unfold XBuf.put at h
  unfold pPut
  rw [hb] at h
  split at h
  · cases h
  · rename_i h0
    rw [if_neg h0]
    obtain ⟨m, hm, h⟩ := bind_eq_ok.mp h
    injection h with h
    subst h
    unfold snprintfAt at hm
    split at hm
    · rename_i h1
      injection hm with hm
      subst hm
      rw [if_pos h1]
      rfl
    · rename_i h1
      rw [if_neg h1]
      dsimp only at hm
      split at hm
      · rename_i hl
        injection hm with hm
        subst hm
        rw [exec_then' (exec_bytes x _ _ _ (sized_set hs x _ hb) (by rw [hb] at hl; exact hl)), set_twice, set_same]
        rfl
      · cases hm

end Mbus
