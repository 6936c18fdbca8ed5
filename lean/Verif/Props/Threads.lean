import Verif.Lemmas.ThreadsExec
import Verif.Props.Statics
import Verif.Props.Address
/-
C127: the functions that return texts in static memory, used by several threads.
-/
namespace Mbus
open Spec

/-- Alone, a call does what the model of its function does. -/
theorem exec_call (c : TextCall) (hc : c.Proper) {s s' : Statics} {p : Ptr} (hs : Sized s) (h : c.run s = .ok (p, s')) : c.prog.exec s = .ok (p, s') := by
  cases c with
  | manufacturer b1 b2 => exact exec_manufacturer hs h
  | product h' => exact exec_product hs h
  | fixedMedium x => exact exec_plain hs h
  | fixedUnit u => exact exec_plain hs h
  | medium m => exact exec_plain hs h
  | unitPrefix e => exact exec_prefix hs h
  | vif v => exact exec_vif hs h
  | error e => exact exec_plain hs h
  | vib r => exact exec_vib hs h
  | decode r =>
    obtain ⟨h1, h2, _⟩ := Delivered.bounds hc
    exact exec_decode hs h1 h2 h
  | unit r => exact exec_unit hs h
  | value r =>
    obtain ⟨h1, h2, _⟩ := Delivered.bounds hc
    exact exec_value hs h1 h2 h
  | function r => exact exec_plain hs h
  | fixedFunction st => exact exec_plain hs h
  | headerXml e h' => exact exec_header hs h
  | recordXml e r stamp cnt frame =>
    obtain ⟨h1, h2, _⟩ := Delivered.bounds hc.2.1
    exact exec_record hs h1 h2 h
  | address f => exact exec_address hs h

/-- What a call accesses. -/
theorem uses_call (c : TextCall) : c.prog.Uses (TextKind.writes c.kind) (At (TextKind.home c.kind)) := by
  cases c with
  | manufacturer b1 b2 => exact uses_manufacturer _ _
  | product h' => exact uses_product _
  | fixedMedium x => exact uses_plain _ _
  | fixedUnit u => exact uses_plain _ _
  | medium m => exact uses_plain _ _
  | unitPrefix e => exact uses_prefix _
  | vif v => exact uses_vif _
  | error e => exact uses_plain _ _
  | vib r => exact uses_vib _
  | decode r => exact uses_decode _
  | unit r => exact uses_unit _
  | value r => exact uses_value _
  | function r => exact uses_plain _ _
  | fixedFunction st => exact uses_plain _ _
  | headerXml e h' => exact uses_header _ _
  | recordXml e r stamp cnt frame => exact uses_record _ _ _ _ _
  | address f => exact uses_address _

theorem home_writes (k : TextKind) : ∀ b ∈ TextKind.home k, b ∈ TextKind.writes k := by
  cases k <;> decide

theorem uses_fetch (c : TextCall) : c.fetch.Uses (TextKind.writes c.kind) (fun _ => True) := by
  unfold TextCall.fetch
  refine uses_bind (uses_call c) fun p hp => ?_
  have hr : (pRead p).Uses (TextKind.writes c.kind) (fun _ => True) := uses_read (at_mono (home_writes _) p hp)
  cases p with
  | null => trivial
  | const t => exact uses_bind hr fun _ _ => trivial
  | buf b => exact uses_bind hr fun _ _ => trivial

/-- the arrays a thread accesses -/
def threadUses (cs : List TextCall) : List SBuf := cs.flatMap fun c => TextKind.writes c.kind

theorem uses_fetchAll (cs : List TextCall) : (fetchAll cs).Uses (threadUses cs) (fun _ => True) := by
  induction cs with
  | nil => trivial
  | cons c cs ih =>
    unfold fetchAll
    refine uses_bind ((uses_fetch c).mono (fun b hb => ?_) (fun _ h => h)) fun t _ => uses_bind (ih.mono (fun b hb => ?_) (fun _ h => h)) fun _ _ => trivial
    · exact List.mem_flatMap.mpr ⟨c, List.mem_cons_self .., hb⟩
    · obtain ⟨d, h1, h2⟩ := List.mem_flatMap.mp hb
      exact List.mem_flatMap.mpr ⟨d, List.mem_cons_of_mem _ h1, h2⟩

/-- Alone, a call and the reading of its text. -/
theorem exec_fetch (c : TextCall) (hc : c.Proper) : ∃ t, c.text = .ok t ∧ ∀ s, Sized s → ∃ s', Sized s' ∧ c.fetch.exec s = .ok (t, s') := by
  obtain ⟨t, h1, h2⟩ := C112_stateless c hc
  refine ⟨t, h1, fun s hs => ?_⟩
  obtain ⟨p, s', h3, h4, h5⟩ := h2 s hs
  refine ⟨s', h4, ?_⟩
  unfold TextCall.fetch
  rw [exec_then (exec_call c hc hs h3)]
  cases t with
  | none => subst h5; rfl
  | some t =>
    cases p with
    | null => cases h5
    | const u => rw [exec_then (exec_read h4 h5)]; rfl
    | buf b => rw [exec_then (exec_read h4 h5)]; rfl

theorem exec_fetchAll (cs : List TextCall) (hc : ∀ c ∈ cs, c.Proper) : ∃ ts, textsOf cs = .ok ts ∧ ∀ s, Sized s → ∃ s', (fetchAll cs).exec s = .ok (ts, s') := by
  induction cs with
  | nil => exact ⟨[], rfl, fun s _ => ⟨s, rfl⟩⟩
  | cons c cs ih =>
    obtain ⟨t, h1, h2⟩ := exec_fetch c (hc c (List.mem_cons_self ..))
    obtain ⟨ts, h3, h4⟩ := ih fun d hd => hc d (List.mem_cons_of_mem _ hd)
    refine ⟨t :: ts, ?_, fun s hs => ?_⟩
    · unfold textsOf
      rw [h1, ok_bind, h3, ok_bind]
    · obtain ⟨s1, k1, k2⟩ := h2 s hs
      obtain ⟨s2, k3⟩ := h4 s1 k1
      refine ⟨s2, ?_⟩
      unfold fetchAll
      rw [exec_then k2, exec_then k3]
      rfl

/-- the number of accesses, alone -/
def Prog.cost {α : Type} : Prog α → Statics → Nat
  | .done _, _ => 0
  | .fault _, _ => 0
  | .load b i k, s => (k ((s b).getD i 0)).cost s + 1
  | .store b i v k, s => k.cost (s.set b ((s b).set i v)) + 1

/-- Where a thread is: alone on the memory `g` it would go on to the result `a`, with `n` accesses left; the shared memory looks like `g` to it. -/
def Prog.Heads {α : Type} (q : Prog α) (B : List SBuf) (mem : Statics) (a : α) (n : Nat) : Prop :=
  q.Uses B (fun _ => True) ∧ ∃ g : Statics, (∀ b ∈ B, g b = mem b) ∧ (∃ g', q.exec g = .ok (a, g')) ∧ q.cost g = n

theorem Prog.Heads.step {α : Type} {q : Prog α} {B : List SBuf} {mem : Statics} {a : α} {n : Nat} (h : q.Heads B mem a n) :
    ∃ q' mem', oneStep q mem = .ok (q', mem') ∧ q'.Heads B mem' a (n - 1) ∧ ∀ b, b ∉ B → mem' b = mem b := by
  obtain ⟨hu, g, hg, ⟨g', he⟩, hn⟩ := h
  cases q with
  | done x => exact ⟨_, _, rfl, ⟨hu, g, hg, ⟨g', he⟩, by subst hn; rfl⟩, fun _ _ => rfl⟩
  | fault f => cases he
  | load b i k =>
    rw [Prog.exec] at he
    split at he
    · rename_i hi
      refine ⟨k ((mem b).getD i 0), mem, if_pos hi, ⟨hu.2 _, g, hg, ⟨g', ?_⟩, ?_⟩, fun _ _ => rfl⟩
      · rw [← hg b hu.1]; exact he
      · rw [← hg b hu.1, ← hn]; rfl
    · cases he
  | store b i v k =>
    rw [Prog.exec] at he
    split at he
    · rename_i hi
      refine ⟨k, mem.set b ((mem b).set i v), if_pos hi, ⟨hu.2, _, ?_, ⟨g', he⟩, by subst hn; rfl⟩, fun c hc => set_other _ _ fun e => hc (e ▸ hu.1)⟩
      intro c hc
      by_cases e : c = b
      · subst e; rw [set_same, set_same, hg c hc]
      · rw [set_other _ _ e, set_other _ _ e, hg c hc]
    · cases he

theorem Prog.Heads.other {α : Type} {q : Prog α} {B B' : List SBuf} {mem mem' : Statics} {a : α} {n : Nat} (h : q.Heads B mem a n) (hm : ∀ b, b ∉ B' → mem' b = mem b)
    (hd : ∀ b ∈ B, b ∉ B') : q.Heads B mem' a n := by
  obtain ⟨hu, g, hg, he, hn⟩ := h
  exact ⟨hu, g, fun b hb => (hg b hb).trans (hm b (hd b hb)).symm, he, hn⟩

theorem Prog.Heads.next {α : Type} {q : Prog α} {B : List SBuf} {mem : Statics} {a : α} {n : Nat} (h : q.Heads B mem a n) {w : Bool} {b : SBuf} {k : Nat}
    (hk : nextAccess q = some (w, b, k)) : b ∈ B := by
  obtain ⟨hu, _⟩ := h
  cases q with
  | done x => cases hk
  | fault f => cases hk
  | load c i g => injection hk with hk; injection hk with _ hk; injection hk with hk _; exact hk ▸ hu.1
  | store c i v g => injection hk with hk; injection hk with _ hk; injection hk with hk _; exact hk ▸ hu.1

/-- Threads whose arrays are apart, under every schedule. -/
theorem threads_apart {α : Type} (B : Nat → List SBuf) (hB : ∀ i j, i ≠ j → ∀ b ∈ B i, b ∉ B j) (a : Nat → α) (sched : List Nat) :
    ∀ (t : Threads α) (n : Nat → Nat), (∀ i, (t.code i).Heads (B i) t.mem (a i) (n i)) →
    ∃ t', t.run sched = .ok t' ∧ ∀ i, (t'.code i).Heads (B i) t'.mem (a i) (n i - sched.count i) := by
  induction sched with
  | nil => exact fun t n h => ⟨t, rfl, h⟩
  | cons i sched ih =>
    intro t n h
    obtain ⟨q, m, h1, h2, h3⟩ := (h i).step
    obtain ⟨t', k1, k2⟩ := ih ⟨m, fun j => if j = i then q else t.code j⟩ (fun j => if j = i then n i - 1 else n j) (by
      intro j
      dsimp only
      by_cases e : j = i
      · subst e
        rw [if_pos rfl, if_pos rfl]
        exact h2
      · rw [if_neg e, if_neg e]
        exact (h j).other h3 (hB j i e))
    refine ⟨t', ?_, fun j => ?_⟩
    · unfold Threads.run Threads.move
      rw [h1, ok_bind, ok_bind]
      exact k1
    · have := k2 j
      rw [List.count_cons]
      by_cases e : j = i
      · subst e
        rw [if_pos rfl] at this
        rw [if_pos (beq_self_eq_true j)]
        rwa [show n j - (sched.count j + 1) = n j - 1 - sched.count j by omega]
      · rw [if_neg e] at this
        rw [if_neg (by simpa using fun h => e h.symm)]
        exact this

theorem Prog.Heads.result {α : Type} {q : Prog α} {B : List SBuf} {mem : Statics} {a : α} {n : Nat} (h : q.Heads B mem a n) :
    (n = 0 → q = .done a) ∧ ∀ r, q = .done r → r = a := by
  obtain ⟨_, g, _, ⟨g', he⟩, hn⟩ := h
  cases q with
  | done x =>
    have : x = a := congrArg Prod.fst (Except.ok.inj he)
    subst this
    exact ⟨fun _ => rfl, fun r hr => by injection hr with hr; exact hr.symm⟩
  | fault f => cases he
  | load b i k => exact ⟨fun h => absurd (hn.trans h) (Nat.succ_ne_zero _), fun r hr => nomatch hr⟩
  | store b i v k => exact ⟨fun h => absurd (hn.trans h) (Nat.succ_ne_zero _), fun r hr => nomatch hr⟩

theorem families_sound (k d : TextKind) (h : ¬ Related k d) : ∀ b ∈ TextKind.writes k, b ∉ TextKind.writes d := by
  have key : ∀ k d : TextKind, (∃ f ∈ families, k ∈ f ∧ d ∈ f) ∨ ∀ b ∈ TextKind.writes k, b ∉ TextKind.writes d := by
    intro k d
    cases k <;> cases d <;> decide +kernel
  exact (key k d).resolve_left h

/-- C127: threads (any number, each with any list of calls) of which no two use functions of one family may run in parallel: under every interleaving of their accesses there is no data
race, no undefined behaviour, and every thread gets exactly the texts it asked for, as soon as it has made enough accesses. -/
theorem C127_apart (calls : Nat → List TextCall) (hp : ∀ i, ∀ c ∈ calls i, c.Proper)
    (hr : ∀ i j, i ≠ j → ∀ c ∈ calls i, ∀ d ∈ calls j, ¬ Related c.kind d.kind) (s : Statics) (hs : Sized s) :
    ∃ (texts : Nat → List (Option (List Byte))) (n : Nat → Nat), (∀ i, textsOf (calls i) = .ok (texts i)) ∧
      ∀ sched : List Nat, ∃ t, (Threads.mk s fun i => fetchAll (calls i)).run sched = .ok t ∧ ¬ t.Race ∧
        ∀ i, (n i ≤ sched.count i → t.code i = .done (texts i)) ∧ ∀ r, t.code i = .done r → r = texts i := by
  have hB : ∀ i j, i ≠ j → ∀ b ∈ threadUses (calls i), b ∉ threadUses (calls j) := by
    intro i j hij b hb hb'
    obtain ⟨c, h1, h2⟩ := List.mem_flatMap.mp hb
    obtain ⟨d, h3, h4⟩ := List.mem_flatMap.mp hb'
    exact families_sound _ _ (hr i j hij c h1 d h3) b h2 h4
  refine ⟨fun i => match textsOf (calls i) with | .ok ts => ts | .error _ => [], fun i => (fetchAll (calls i)).cost s, ?_, ?_⟩
  · intro i
    obtain ⟨ts, h, _⟩ := exec_fetchAll (calls i) (hp i)
    dsimp only
    rw [h]
  · intro sched
    obtain ⟨t, h1, h2⟩ := threads_apart (fun i => threadUses (calls i)) hB (fun i => match textsOf (calls i) with | .ok ts => ts | .error _ => []) sched
      ⟨s, fun i => fetchAll (calls i)⟩ (fun i => (fetchAll (calls i)).cost s) (by
        intro i
        obtain ⟨ts, h, h'⟩ := exec_fetchAll (calls i) (hp i)
        dsimp only
        rw [h]
        exact ⟨uses_fetchAll _, s, fun _ _ => rfl, h' s hs, rfl⟩)
    refine ⟨t, h1, ?_, fun i => ?_⟩
    · rintro ⟨i, j, hij, w, v, b, k, q1, q2, _⟩
      exact hB i j hij b ((h2 i).next q1) ((h2 j).next q2)
    · have h := (h2 i).result
      exact ⟨fun hn => h.1 (Nat.sub_eq_zero_of_le hn), h.2⟩

/-! The other way round. -/

theorem run_append {α : Type} (t : Threads α) (a b : List Nat) : t.run (a ++ b) = t.run a >>= fun t => t.run b := by
  induction a generalizing t with
  | nil => rfl
  | cons i a ih =>
    show (t.move i >>= fun t => t.run (a ++ b)) = (t.move i >>= fun t => t.run a) >>= _
    cases t.move i with
    | error f => rfl
    | ok t => exact ih t

/-- One thread runs through a piece of its code. -/
theorem run_drive {α β : Type} (i : Nat) (p : Prog β) (k : β → Prog α) : ∀ (t : Threads α) (a : β) (s' : Statics), t.code i = p >>= k → p.exec t.mem = .ok (a, s') →
    t.run (List.replicate (p.cost t.mem) i) = .ok ⟨s', fun j => if j = i then k a else t.code j⟩ := by
  induction p with
  | done x =>
    intro t a s' hc he
    obtain ⟨h1, h2⟩ := Prod.mk.inj (Except.ok.inj he)
    subst h1 h2
    show Except.ok t = _
    obtain ⟨m, c⟩ := t
    congr 2
    funext j
    split
    · rename_i e; subst e; exact hc
    · rfl
  | fault f => intro t a s' hc he; cases he
  | load b n g ih =>
    intro t a s' hc he
    rw [Prog.exec] at he
    split at he
    · rename_i hn
      show t.run (i :: List.replicate ((g _).cost t.mem) i) = _
      unfold Threads.run Threads.move
      rw [hc, show oneStep (Prog.load b n g >>= k) t.mem = .ok (g ((t.mem b).getD n 0) >>= k, t.mem) from if_pos hn, ok_bind, ok_bind]
      have := ih ((t.mem b).getD n 0) ⟨t.mem, fun j => if j = i then g ((t.mem b).getD n 0) >>= k else t.code j⟩ a s' (if_pos rfl) he
      rw [this]
      congr 2
      funext j
      dsimp only
      split <;> rfl
    · cases he
  | store b n v g ih =>
    intro t a s' hc he
    rw [Prog.exec] at he
    split at he
    · rename_i hn
      show t.run (i :: List.replicate (g.cost _) i) = _
      unfold Threads.run Threads.move
      rw [hc, show oneStep (Prog.store b n v g >>= k) t.mem = .ok (g >>= k, t.mem.set b ((t.mem b).set n v)) from if_pos hn, ok_bind, ok_bind]
      have := ih ⟨t.mem.set b ((t.mem b).set n v), fun j => if j = i then g >>= k else t.code j⟩ a s' (if_pos rfl) he
      rw [this]
      congr 2
      funext j
      dsimp only
      split <;> rfl
    · cases he

theorem uses_any {α : Type} (p : Prog α) : p.Uses
    [.manufacturer, .product, .fixedMedium, .fixedUnit, .medium, .unitPrefix, .vif, .error, .fb, .fd, .vib, .decode, .unit, .value, .function, .fixedFunction, .headerXml, .recordXml,
     .address] (fun _ => True) := by
  induction p with
  | done a => trivial
  | fault f => trivial
  | load b i g ih => exact ⟨by cases b <;> decide, ih⟩
  | store b i v g ih => exact ⟨by cases b <;> decide, ih⟩

theorem exec_result {α : Type} {B : List SBuf} {Q : α → Prop} {p : Prog α} (hp : p.Uses B Q) {s s' : Statics} {a : α} (h : p.exec s = .ok (a, s')) : Q a := by
  induction p generalizing s with
  | done x => obtain ⟨h1, _⟩ := Prod.mk.inj (Except.ok.inj h); subst h1; exact hp
  | fault f => cases h
  | load b i g ih =>
    rw [Prog.exec] at h
    split at h
    · exact ih _ (hp.2 _) h
    · cases h
  | store b i v g ih =>
    rw [Prog.exec] at h
    split at h
    · exact ih hp.2 h
    · cases h

/-- Every function but `mbus_vib_unit_lookup` returns an array (or NULL). -/
theorem uses_noconst (c : TextCall) (hv : c.kind ≠ .vib) : ∃ B, c.prog.Uses B (fun p => ∀ t, p ≠ .const t) := by
  have fin : ∀ (b : SBuf) (B : List SBuf), (Prog.done (Ptr.buf b)).Uses B (fun p => ∀ t, p ≠ .const t) := fun b B t h => nomatch h
  have plain : ∀ (b : SBuf) (t : List Byte), ∃ B, (pPlain b t).Uses B (fun p => ∀ t, p ≠ .const t) := fun b t => ⟨_, uses_bind (uses_any _) fun _ _ => fin _ _⟩
  cases c with
  | vib r => exact absurd rfl hv
  | manufacturer b1 b2 =>
    exact ⟨_, by decide, by decide, by decide, fun y => ⟨by decide, fun x => uses_bind (uses_any _) fun _ _ => uses_bind (uses_any _) fun _ _ => fin _ _⟩⟩
  | product h' => exact ⟨_, uses_bind (uses_any _) fun _ _ => uses_bind (uses_any _) fun _ _ => uses_bind (uses_any _) fun _ _ => fin _ _⟩
  | fixedMedium x => exact plain _ _
  | fixedUnit u => exact plain _ _
  | medium m => exact plain _ _
  | unitPrefix e => exact plain _ _
  | vif v =>
    show ∃ B, (pFormat .vif (vifScaled v) (vifUnitText v)).Uses B _
    unfold pFormat
    split
    · exact ⟨_, uses_bind (uses_any _) fun _ _ => uses_bind (uses_any _) fun _ _ => uses_bind (uses_any _) fun _ _ => fin _ _⟩
    · exact plain _ _
  | error e => exact plain _ _
  | decode r => exact ⟨_, uses_bind (uses_any _) fun _ _ => uses_bind (uses_any _) fun _ _ => uses_bind (uses_any _) fun _ _ => fin _ _⟩
  | unit r => exact ⟨_, uses_bind (uses_any _) fun _ _ => uses_bind (uses_any _) fun _ _ => uses_bind (uses_any _) fun _ _ => fin _ _⟩
  | value r => exact ⟨_, uses_bind (uses_any _) fun _ _ => uses_bind (uses_any _) fun _ _ => uses_bind (uses_any _) fun _ _ => fin _ _⟩
  | function r => exact plain _ _
  | fixedFunction st => exact plain _ _
  | headerXml e h' =>
    refine ⟨[.manufacturer, .product, .fixedMedium, .fixedUnit, .medium, .unitPrefix, .vif, .error, .fb, .fd, .vib, .decode, .unit, .value, .function, .fixedFunction, .headerXml,
      .recordXml, .address], ?_⟩
    show (pHeaderXml e h').Uses _ _
    unfold pHeaderXml
    repeat (refine uses_bind (uses_any _) fun _ _ => ?_)
    exact fin _ _
  | recordXml e r stamp cnt frame =>
    refine ⟨[.manufacturer, .product, .fixedMedium, .fixedUnit, .medium, .unitPrefix, .vif, .error, .fb, .fd, .vib, .decode, .unit, .value, .function, .fixedFunction, .headerXml,
      .recordXml, .address], ?_⟩
    show (pRecordXml e r stamp cnt frame).Uses _ _
    unfold pRecordXml
    repeat (refine uses_bind (uses_any _) fun _ _ => ?_)
    exact fin _ _
  | address f =>
    refine ⟨_, uses_bind (uses_any _) fun t _ => ?_⟩
    cases t with
    | none => exact fun t h => nomatch h
    | some t => exact uses_bind (uses_any _) fun _ _ => fin _ _

theorem one_home (k : TextKind) (hv : k ≠ .vib) : ∃ b, TextKind.home k = [b] := by
  cases k <;> first | exact ⟨_, rfl⟩ | exact absurd rfl hv

/-- A call with a text, alone: the text is in the array of its function. -/
theorem exec_home (c : TextCall) (hc : c.Proper) (hv : c.kind ≠ .vib) (b : SBuf) (hb : TextKind.home c.kind = [b]) (t : List Byte) (ht : c.text = .ok (some t)) (s : Statics) (hs : Sized s) :
    ∃ s', Sized s' ∧ c.prog.exec s = .ok (.buf b, s') ∧ s'.read (.buf b) = .ok t := by
  obtain ⟨t', h1, h2⟩ := call_tells c hc
  have := Except.ok.inj (h1.symm.trans ht)
  subst this
  obtain ⟨p, s', k1, k2, _, k4, k5⟩ := h2 s hs
  have e := exec_call c hc hs k1
  obtain ⟨B, hB⟩ := uses_noconst c hv
  have hn := exec_result hB e
  cases p with
  | null => cases k4
  | const u => exact absurd rfl (hn u)
  | buf b' =>
    have := k5 b' rfl
    rw [hb, List.mem_singleton] at this
    subst this
    exact ⟨s', k2, e, k4⟩

/-- Two threads with one call each. -/
def twoThreads (s : Statics) (c d : TextCall) : Threads (List (Option (List Byte))) :=
  ⟨s, fun i => if i = 0 then fetchAll [c] else if i = 1 then fetchAll [d] else .done []⟩

theorem fetchAll_one (c : TextCall) : fetchAll [c] = c.fetch >>= fun t => .done [t] := rfl

theorem prog_assoc {α β γ : Type} (p : Prog α) (f : α → Prog β) (g : β → Prog γ) : (p >>= f) >>= g = p >>= fun a => f a >>= g := by
  show (p.bind f).bind g = p.bind fun a => (f a).bind g
  induction p with
  | done a => rfl
  | fault x => rfl
  | load b i k ih => exact congrArg (Prog.load b i) (funext fun v => ih v)
  | store b i v k ih => exact congrArg (Prog.store b i v) ih

theorem drive_to {α β : Type} (i : Nat) (p : Prog β) (k : β → Prog α) (t : Threads α) (a : β) (s' : Statics) (hc : t.code i = p >>= k) (he : p.exec t.mem = .ok (a, s')) :
    ∃ n r, t.run (List.replicate n i) = .ok r ∧ r.mem = s' ∧ r.code i = k a ∧ ∀ j, j ≠ i → r.code j = t.code j :=
  ⟨_, _, run_drive i p k t a s' hc he, rfl, if_pos rfl, fun _ hj => if_neg hj⟩

/-- C127: one function in two threads.  Whatever the two calls are (the function being any but `mbus_vib_unit_lookup`), there is a schedule under which both threads get the text of the
second call; for `mbus_frame_get_secondary_address` (whose text a scan reports, mbus-protocol-aux.c:2336-2339) the first thread then takes the other thread's meter for its own. -/
theorem C127_swapped (c d : TextCall) (hc : c.Proper) (hd : d.Proper) (hk : c.kind = d.kind) (hv : c.kind ≠ .vib) (t u : List Byte) (ht : c.text = .ok (some t))
    (hu : d.text = .ok (some u)) (s : Statics) (hs : Sized s) :
    ∃ sched r, (twoThreads s c d).run sched = .ok r ∧ r.code 0 = .done [some u] ∧ r.code 1 = .done [some u] := by
  obtain ⟨b, hb⟩ := one_home c.kind hv
  obtain ⟨s1, z1, e1, _⟩ := exec_home c hc hv b hb t ht s hs
  obtain ⟨s2, z2, e2, r2⟩ := exec_home d hd (hk ▸ hv) b (hk ▸ hb) u hu s1 z1
  have er := exec_read z2 r2
  obtain ⟨k, k1, k2⟩ : ∃ k : Ptr → Prog (List (Option (List Byte))), (∀ c : TextCall, fetchAll [c] = c.prog >>= k) ∧
      k (.buf b) = pRead (.buf b) >>= fun t => .done [some t] := by
    refine ⟨_, fun c => (fetchAll_one c).trans (prog_assoc c.prog _ _), ?_⟩
    exact prog_assoc (pRead (.buf b)) _ _
  obtain ⟨n1, x1, g1, g2, g3, g4⟩ := drive_to 0 c.prog k (twoThreads s c d) (.buf b) s1 (k1 c) e1
  have c1 : x1.code 1 = d.prog >>= k := (g4 1 (by decide)).trans (k1 d)
  obtain ⟨n2, x2, f1, f2, f3, f4⟩ := drive_to 1 d.prog k x1 (.buf b) s2 c1 (g2 ▸ e2)
  obtain ⟨n3, x3, q1, q2, q3, q4⟩ := drive_to 1 (pRead (.buf b)) _ x2 u s2 (f3.trans k2) (f2 ▸ er)
  have c0 : x3.code 0 = pRead (.buf b) >>= fun t => .done [some t] := by rw [q4 0 (by decide), f4 0 (by decide), g3, k2]
  obtain ⟨n4, x4, w1, w2, w3, w4⟩ := drive_to 0 (pRead (.buf b)) _ x3 u s2 c0 (q2 ▸ er)
  refine ⟨List.replicate n1 0 ++ (List.replicate n2 1 ++ (List.replicate n3 1 ++ List.replicate n4 0)), x4, ?_, w3, ?_⟩
  · rw [run_append, g1, ok_bind, run_append, f1, ok_bind, run_append, q1, ok_bind, w1]
  · rw [w4 1 (by decide), q3]

/-- A piece of code, started on `s`, comes to the point where it is about to store into the first byte of `b`. -/
def Reaches {β : Type} (p : Prog β) (s : Statics) (b : SBuf) : Prop :=
  ∀ (k : β → Prog (List (Option (List Byte)))) (t : Threads (List (Option (List Byte)))) (i : Nat), t.code i = p >>= k → t.mem = s →
    ∃ n r, t.run (List.replicate n i) = .ok r ∧ nextAccess (r.code i) = some (true, b, 0) ∧ Sized r.mem ∧ ∀ j, j ≠ i → r.code j = t.code j

theorem reach_now {β : Type} {p : Prog β} {s : Statics} {b : SBuf} (hs : Sized s) (h : ∀ k : β → Prog (List (Option (List Byte))), nextAccess (p >>= k) = some (true, b, 0)) :
    Reaches p s b :=
  fun k t i hc hm => ⟨0, t, rfl, by rw [hc]; exact h k, by rw [hm]; exact hs, fun _ _ => rfl⟩

theorem reach_in {β γ : Type} {p : Prog β} (f : β → Prog γ) {s : Statics} {b : SBuf} (h : Reaches p s b) : Reaches (p >>= f) s b :=
  fun k t i hc hm => h (fun a => f a >>= k) t i (hc.trans (prog_assoc _ _ _)) hm

theorem reach_after {β γ : Type} {p : Prog β} {f : β → Prog γ} {s s1 : Statics} {b : SBuf} {a : β} (he : p.exec s = .ok (a, s1)) (h : Reaches (f a) s1 b) : Reaches (p >>= f) s b := by
  intro k t i hc hm
  obtain ⟨n1, r1, g1, g2, g3, g4⟩ := drive_to i p (fun a => f a >>= k) t a s1 (hc.trans (prog_assoc _ _ _)) (hm ▸ he)
  obtain ⟨n2, r2, f1, f2, f3, f4⟩ := h k r1 i g3 g2
  refine ⟨n1 + n2, r2, ?_, f2, f3, fun j hj => (f4 j hj).trans (g4 j hj)⟩
  rw [← List.replicate_append_replicate, run_append, g1, ok_bind, f1]

/-- The same when it is known that the whole code runs through. -/
theorem reach_step {β γ : Type} {p : Prog β} {f : β → Prog γ} {s : Statics} {b : SBuf} {x : γ × Statics} (hs : Sized s) (hx : (p >>= f).exec s = .ok x)
    (h : ∀ a s1, Sized s1 → (f a).exec s1 = .ok x → Reaches (f a) s1 b) : Reaches (p >>= f) s b := by
  rw [exec_bind] at hx
  obtain ⟨⟨a, s1⟩, h1, h2⟩ := bind_eq_ok.mp hx
  exact reach_after h1 (h a s1 (exec_sized p hs h1) h2)

theorem next_bytes {γ : Type} (b : SBuf) (t : List Byte) (ht : t ≠ []) (k : Unit → Prog γ) : nextAccess (pBytes b 0 t >>= k) = some (true, b, 0) := by
  cases t with
  | nil => exact absurd rfl ht
  | cons v t => rfl

theorem reach_bytes {b : SBuf} {t : List Byte} (ht : t ≠ []) {s : Statics} (hs : Sized s) : Reaches (pBytes b 0 t) s b := reach_now hs fun k => next_bytes b t ht k

theorem reach_print {b : SBuf} {args : List Ptr} {t : List Byte} {s : Statics} (hs : Sized s) {x : Unit × Statics} (hx : (pPrint b args t).exec s = .ok x) :
    Reaches (pPrint b args t) s b := by
  unfold pPrint at hx ⊢
  split at hx
  · cases hx
  · rename_i h
    rw [if_neg h]
    exact reach_bytes (by simp) hs

theorem reach_plain (b : SBuf) (t : List Byte) {s : Statics} (hs : Sized s) : Reaches (pPlain b t) s b :=
  reach_in _ (by
    unfold pPrint
    rw [if_neg (by simp)]
    exact reach_bytes (by simp) hs)

theorem reach_put {b : SBuf} {t : List Byte} {s : Statics} (hs : Sized s) : Reaches (pPut b 0 t) s b := by
  unfold pPut
  have := b.cap_pos
  rw [if_neg (by omega), if_neg (by omega)]
  exact reach_in _ (reach_bytes (by simp) hs)

theorem reach_update {b : SBuf} {old m : List Byte} (ho : old ≠ []) (hm : m ≠ []) {s : Statics} (hs : Sized s) : Reaches (pUpdate b 0 true old m) s b := by
  cases old with
  | nil => exact absurd rfl ho
  | cons o old =>
    cases m with
    | nil => exact absurd rfl hm
    | cons n m =>
      rw [pUpdate, if_pos (.inl rfl)]
      exact reach_now hs fun k => rfl

theorem reach_decode {r : Record} (hn : r.dataLen ≤ 234) (hd : r.dif.toNat % 16 = 0xD → 1 ≤ r.dataLen) {s : Statics} (hs : Sized s) : Reaches (pDecode r) s .decode := by
  obtain ⟨m, h2, h3, _⟩ := recordDecode_leaves (s .decode) r (hs .decode) hn hd
  have e1 : (pLoad .decode 768 0).exec s = .ok ((s .decode).drop 0, s) := exec_load .decode s hs 768 0 (by decide)
  rw [List.drop_zero] at e1
  unfold pDecode
  generalize pLoad .decode 768 0 = q at e1 ⊢
  refine reach_after e1 (reach_after (exec_lift h2 s) (reach_in _ (reach_update ?_ ?_ hs)))
  · intro h
    have := hs .decode
    rw [h] at this
    cases this
  · intro h
    rw [h] at h3
    cases h3

theorem reach_value {r : Record} (hn : r.dataLen ≤ 234) (hd : r.dif.toNat % 16 = 0xD → 1 ≤ r.dataLen) {s : Statics} (hs : Sized s) : Reaches (pValue r) s .decode :=
  reach_in _ (reach_decode hn hd hs)

/-- The last store of a function that prints a nested text. -/
theorem reach_last {q : Prog Ptr} {b : SBuf} {f : Ptr → List Byte → List Byte} {s : Statics} (hs : Sized s) {x : Ptr × Statics}
    (hx : (q >>= fun p => pRead p >>= fun t => pPrint b [p] (f p t) >>= fun _ => Prog.done (Ptr.buf b)).exec s = .ok x) :
    Reaches (q >>= fun p => pRead p >>= fun t => pPrint b [p] (f p t) >>= fun _ => Prog.done (Ptr.buf b)) s b := by
  refine reach_step hs hx fun p s1 z1 h1 => reach_step z1 h1 fun t s2 z2 h2 => ?_
  rw [exec_bind] at h2
  obtain ⟨⟨a, s3⟩, h3, _⟩ := bind_eq_ok.mp h2
  exact reach_in _ (reach_print z2 h3)

theorem reach_header {e : List Byte} {h : VarHeader} {s : Statics} (hs : Sized s) {x : Ptr × Statics} (hx : (pHeaderXml e h).exec s = .ok x) :
    Reaches (pHeaderXml e h) s .headerXml ∧ Reaches (pHeaderXml e h) s .manufacturer ∧ Reaches (pHeaderXml e h) s .product ∧ Reaches (pHeaderXml e h) s .medium := by
  unfold pHeaderXml at hx ⊢
  refine ⟨reach_in _ (reach_put hs), ?_, ?_, ?_⟩
  · refine reach_step hs hx fun _ _ hs hx => reach_step hs hx fun _ _ hs hx => reach_step hs hx fun _ _ hs hx => reach_step hs hx fun _ _ hs hx => reach_step hs hx fun _ _ hs hx => ?_
    exact reach_in _ (reach_now hs fun k => rfl)
  · refine reach_step hs hx fun _ _ hs hx => reach_step hs hx fun _ _ hs hx => reach_step hs hx fun _ _ hs hx => reach_step hs hx fun _ _ hs hx => reach_step hs hx fun _ _ hs hx => ?_
    refine reach_step hs hx fun _ _ hs hx => reach_step hs hx fun _ _ hs hx => reach_step hs hx fun _ _ hs hx => reach_step hs hx fun _ _ hs hx => ?_
    refine reach_in _ ?_
    obtain ⟨t, h1, _⟩ := productName_ok h
    exact reach_after (exec_lift h1 _) (reach_in _ (reach_bytes (by simp) hs))
  · refine reach_step hs hx fun _ _ hs hx => reach_step hs hx fun _ _ hs hx => reach_step hs hx fun _ _ hs hx => reach_step hs hx fun _ _ hs hx => reach_step hs hx fun _ _ hs hx => ?_
    refine reach_step hs hx fun _ _ hs hx => reach_step hs hx fun _ _ hs hx => reach_step hs hx fun _ _ hs hx => reach_step hs hx fun _ _ hs hx => ?_
    refine reach_step hs hx fun _ _ hs hx => reach_step hs hx fun _ _ hs hx => reach_step hs hx fun _ _ hs hx => reach_step hs hx fun _ _ hs hx => ?_
    exact reach_in _ (reach_plain _ _ hs)

theorem reach_record {e : List Byte} {r : Record} {stamp : Option (List Byte)} {c f : Int} (hn : r.dataLen ≤ 234) (hd : r.dif.toNat % 16 = 0xD → 1 ≤ r.dataLen) {s : Statics} (hs : Sized s)
    {x : Ptr × Statics} (hx : (pRecordXml e r stamp c f).exec s = .ok x) :
    Reaches (pRecordXml e r stamp c f) s .recordXml ∧ Reaches (pRecordXml e r stamp c f) s .decode ∧ Reaches (pRecordXml e r stamp c f) s .value := by
  unfold pRecordXml at hx ⊢
  refine ⟨reach_in _ ?_, ?_, ?_⟩
  · unfold pRecordOpen
    split <;> exact reach_put hs
  · refine reach_step hs hx fun _ _ hs hx => reach_step hs hx fun _ _ hs hx => ?_
    exact reach_in _ (reach_value hn hd hs)
  · refine reach_step hs hx fun _ _ hs hx => reach_step hs hx fun _ _ hs hx => ?_
    dsimp only at hx ⊢
    rw [exec_bind] at hx
    obtain ⟨y, hy, _⟩ := bind_eq_ok.mp hx
    exact reach_in _ (reach_last hs hy)

/-- The unit of the record needs a prefix. -/
def Prefixed (r : Record) : Prop := r.vif ≠ 0xFB ∧ r.vif ≠ 0xFD ∧ r.vif ≠ 0x7C ∧ r.vif ≠ 0xFC ∧ (vifScaled r.vif).isSome = true

theorem reach_vif {v : Byte} (h : (vifScaled v).isSome = true) {s : Statics} (hs : Sized s) : Reaches (pVif v) s .unitPrefix := by
  unfold pVif pFormat
  cases hv : vifScaled v with
  | none => rw [hv] at h; cases h
  | some y =>
    obtain ⟨a, b, c⟩ := y
    exact reach_in _ (reach_plain _ _ hs)

theorem reach_vib {r : Record} (h : Prefixed r) {s : Statics} (hs : Sized s) {x : Ptr × Statics} (hx : (pVib r).exec s = .ok x) : Reaches (pVib r) s .unitPrefix := by
  unfold pVib at hx ⊢
  refine reach_step hs hx fun v0 _ hs hx => ?_
  obtain ⟨h1, h2, h3, h4, h5⟩ := h
  rw [if_neg h1, if_neg h2, if_neg h3, if_neg (fun h => h4 h.1)]
  exact reach_vif h5 hs

theorem reach_unit {r : Record} (h : Prefixed r) {s : Statics} (hs : Sized s) {x : Ptr × Statics} (hx : (pUnit r).exec s = .ok x) : Reaches (pUnit r) s .unitPrefix := by
  unfold pUnit at hx ⊢
  rw [exec_bind] at hx
  obtain ⟨y, hy, _⟩ := bind_eq_ok.mp hx
  exact reach_in _ (reach_vib h hs hy)

theorem reach_fields {e : List Byte} {r : Record} {stamp : Option (List Byte)} {c f : Int} (h1 : r.dif ≠ 0x0F) (h2 : r.dif ≠ 0x1F) {s : Statics} (hs : Sized s)
    {x : Ptr × Statics} (hx : (pRecordXml e r stamp c f).exec s = .ok x) :
    Reaches (pRecordXml e r stamp c f) s .function ∧ (Prefixed r → Reaches (pRecordXml e r stamp c f) s .unitPrefix) := by
  unfold pRecordXml pRecordFields at hx ⊢
  constructor
  · refine reach_step hs hx fun _ _ hs hx => ?_
    rw [if_neg h1, if_neg h2]
    exact reach_in _ (reach_in _ (reach_plain _ _ hs))
  · intro hp
    refine reach_step hs hx fun _ _ hs hx => ?_
    rw [if_neg h1, if_neg h2] at hx ⊢
    rw [exec_bind] at hx
    obtain ⟨y, hx, _⟩ := bind_eq_ok.mp hx
    refine reach_in _ ?_
    refine reach_step hs hx fun _ _ hs hx => reach_step hs hx fun _ _ hs hx => reach_step hs hx fun _ _ hs hx => reach_step hs hx fun _ _ hs hx => ?_
    refine reach_step hs hx fun _ _ hs hx => reach_step hs hx fun _ _ hs hx => reach_step hs hx fun _ _ hs hx => ?_
    rw [exec_bind] at hx
    obtain ⟨y, hx, _⟩ := bind_eq_ok.mp hx
    exact reach_in _ (reach_unit hp hs hx)

/-- Two calls that both come to store into `b` race. -/
theorem race_of {c d : TextCall} {b : SBuf} (hc : ∀ s, Sized s → Reaches c.prog s b) (hd : ∀ s, Sized s → Reaches d.prog s b) (s : Statics) (hs : Sized s) :
    ∃ sched r, (twoThreads s c d).run sched = .ok r ∧ r.Race := by
  obtain ⟨k, k1⟩ : ∃ k : Ptr → Prog (List (Option (List Byte))), ∀ c : TextCall, fetchAll [c] = c.prog >>= k := ⟨_, fun c => (fetchAll_one c).trans (prog_assoc c.prog _ _)⟩
  obtain ⟨n1, r1, f1, f2, f3, f4⟩ := hc s hs k (twoThreads s c d) 0 (k1 c) rfl
  obtain ⟨n2, r2, g1, g2, g3, g4⟩ := hd r1.mem f3 k r1 1 ((f4 1 (by decide)).trans (k1 d)) rfl
  refine ⟨List.replicate n1 0 ++ List.replicate n2 1, r2, by rw [run_append, f1, ok_bind, g1], 0, 1, by decide, true, true, b, 0, ?_, g2, .inl rfl⟩
  rw [g4 0 (by decide), f2]

/-- The arrays every call of a function stores into, whatever its arguments (for the secondary address: if there is one). -/
def always : TextKind → List SBuf
  | .manufacturer => [.manufacturer]
  | .product => [.product]
  | .fixedMedium => [.fixedMedium]
  | .fixedUnit => [.fixedUnit]
  | .medium => [.medium]
  | .unitPrefix => [.unitPrefix]
  | .vif => [.vif]
  | .error => [.error]
  | .vib => []
  | .decode => [.decode]
  | .unit => [.unit]
  | .value => [.value, .decode]
  | .function => [.function]
  | .fixedFunction => [.fixedFunction]
  | .headerXml => [.headerXml, .manufacturer, .product, .medium]
  | .recordXml => [.recordXml, .decode, .value]
  | .address => [.address]

theorem reach_always (c : TextCall) (hc : c.Proper) (ha : c.text ≠ .ok none) (b : SBuf) (hb : b ∈ always c.kind) (s : Statics) (hs : Sized s) : Reaches c.prog s b := by
  obtain ⟨x, hx⟩ : ∃ x, c.prog.exec s = .ok x := by
    obtain ⟨_, _, h⟩ := C112_stateless c hc
    obtain ⟨p, s', h, _⟩ := h s hs
    exact ⟨_, exec_call c hc hs h⟩
  have one : ∀ {a : SBuf} {p : Prog Ptr}, b ∈ [a] → Reaches p s a → Reaches p s b := fun h hr => by
    rw [List.mem_singleton] at h
    exact h ▸ hr
  cases c with
  | manufacturer b1 b2 => exact one hb (reach_now hs fun k => rfl)
  | product h =>
    obtain ⟨t, h1, _⟩ := productName_ok h
    exact one hb (reach_after (exec_lift h1 _) (reach_in _ (reach_bytes (by simp) hs)))
  | fixedMedium y => exact one hb (reach_plain _ _ hs)
  | fixedUnit u => exact one hb (reach_plain _ _ hs)
  | medium m => exact one hb (reach_plain _ _ hs)
  | unitPrefix e => exact one hb (reach_plain _ _ hs)
  | vif v =>
    refine one hb ?_
    change (pVif v).exec s = _ at hx
    show Reaches (pVif v) s _
    unfold pVif pFormat at hx ⊢
    generalize vifScaled v = z at hx ⊢
    cases z with
    | none => exact reach_plain _ _ hs
    | some z =>
      obtain ⟨h, e, t⟩ := z
      exact reach_last (f := fun _ u => h ++ u ++ t) hs hx
  | error e => exact one hb (reach_plain _ _ hs)
  | vib r => cases hb
  | decode r =>
    obtain ⟨h1, h2, _⟩ := Delivered.bounds hc
    exact one hb (reach_decode h1 h2 hs)
  | unit r => exact one hb (reach_last (f := fun _ t => t) hs hx)
  | value r =>
    obtain ⟨h1, h2, _⟩ := Delivered.bounds hc
    change b ∈ [SBuf.value, .decode] at hb
    rw [List.mem_cons] at hb
    rcases hb with rfl | hb
    · exact reach_last (f := fun _ t => t) hs hx
    · exact one hb (reach_value h1 h2 hs)
  | function r => exact one hb (reach_plain _ _ hs)
  | fixedFunction st => exact one hb (reach_plain _ _ hs)
  | headerXml e h =>
    obtain ⟨h1, h2, h3, h4⟩ := reach_header hs hx
    simp only [TextCall.kind, always, List.mem_cons, List.not_mem_nil, or_false] at hb
    rcases hb with rfl | rfl | rfl | rfl
    · exact h1
    · exact h2
    · exact h3
    · exact h4
  | recordXml e r stamp cnt frame =>
    obtain ⟨h1, h2, _⟩ := Delivered.bounds hc.2.1
    obtain ⟨h1, h2, h3⟩ := reach_record h1 h2 hs hx
    simp only [TextCall.kind, always, List.mem_cons, List.not_mem_nil, or_false] at hb
    rcases hb with rfl | rfl | rfl
    · exact h1
    · exact h2
    · exact h3
  | address f =>
    obtain ⟨a, h1⟩ := hc
    cases a with
    | none => exact absurd h1 ha
    | some t => exact one hb (reach_after (exec_lift h1 _) (reach_plain _ _ hs))

/-- The pairs of functions that race whatever the arguments are: each function (but `mbus_vib_unit_lookup`) with itself, the header XML with the names in it, and the decoding functions with
each other. -/
def alwaysRacing (k d : TextKind) : Bool :=
  (k == d && k != .vib) || (k == .headerXml && [TextKind.manufacturer, .product, .medium].contains d) || (d == .headerXml && [TextKind.manufacturer, .product, .medium].contains k) ||
  ([TextKind.decode, .value, .recordXml].contains k && [TextKind.decode, .value, .recordXml].contains d)

/-- C127: two threads with one call each, of any arguments: for these pairs of functions there always is a schedule that leads to a data race. -/
theorem C127_race_always (c d : TextCall) (hc : c.Proper) (hd : d.Proper) (hc' : c.text ≠ .ok none) (hd' : d.text ≠ .ok none) (h : alwaysRacing c.kind d.kind = true) (s : Statics)
    (hs : Sized s) : ∃ sched r, (twoThreads s c d).run sched = .ok r ∧ r.Race := by
  obtain ⟨b, h1, h2⟩ : ∃ b, b ∈ always c.kind ∧ b ∈ always d.kind := by
    have key : ∀ k e : TextKind, alwaysRacing k e = true → ∃ b, b ∈ always k ∧ b ∈ always e := by
      intro k e
      have find : ∀ k e : TextKind, alwaysRacing k e = true → ((always k).any fun b => (always e).contains b) = true := by
        intro k e
        cases k <;> cases e <;> decide
      intro h
      obtain ⟨b, h1, h2⟩ := List.any_eq_true.mp (find k e h)
      exact ⟨b, h1, by simpa using h2⟩
    exact key _ _ h
  exact race_of (fun s hs => reach_always c hc hc' b h1 s hs) (fun s hs => reach_always d hd hd' b h2 s hs) s hs

/-- A call for every function. -/
def raceCall : TextKind → TextCall
  | .recordXml => .recordXml (List.replicate 768 0) (sampleRec 2) none 0 (-1)
  | .address => .address (rsp 0x72 hdr)
  | k => sampleCall k true

theorem raceCall_proper (k : TextKind) : (raceCall k).kind = k ∧ (raceCall k).Proper := by
  have d2 : Delivered (sampleRec 2) := sampleRec_delivered 2 (by decide)
  cases k with
  | recordXml =>
    have z : (0 : Int) ≤ 0 ∧ (0 : Int) < 2 ^ 31 ∧ (-1 : Int) ≤ -1 ∧ (-1 : Int) < 2 ^ 31 := by decide
    refine ⟨rfl, List.length_replicate, d2, fun _ => ?_, ?_, z⟩
    · have h : decide ((sampleRec 2).ndife ≤ 8 ∧ storageOf (sampleRec 2).dif ((sampleRec 2).dife.bytes.take (sampleRec 2).ndife) < 2 ^ 31) = true := by decide +kernel
      have h' := of_decide_eq_true h
      exact h'
    · intro t ht; cases ht
  | address => exact ⟨rfl, some (cs! "1234567824400107"), by decide +kernel⟩
  | headerXml => exact ⟨rfl, List.length_replicate⟩
  | vib => exact ⟨rfl, d2⟩
  | decode => exact ⟨rfl, d2⟩
  | unit => exact ⟨rfl, d2⟩
  | value => exact ⟨rfl, d2⟩
  | unitPrefix => exact ⟨rfl, (by decide : (-2 ^ 31 : Int) ≤ _ ∧ _ < (2 ^ 31 : Int))⟩
  | _ => exact ⟨rfl, trivial⟩

/-- The arrays the calls `raceCall` store into. -/
def sometimes : TextKind → List SBuf
  | .vif | .vib | .unit => [.unitPrefix]
  | .recordXml => [.unitPrefix, .function]
  | _ => []

theorem sample_prefixed : Prefixed (sampleRec 2) ∧ (sampleRec 2).dif ≠ 0x0F ∧ (sampleRec 2).dif ≠ 0x1F := by
  unfold Prefixed
  decide +kernel

theorem text_some (c : TextCall) (h : c.kind ≠ .address) : c.text ≠ .ok none := by
  intro h'
  cases c with
  | address f => exact h rfl
  | manufacturer | product | vib | unit | value | headerXml | recordXml =>
    obtain ⟨_, _, h'⟩ := bind_eq_ok.mp h'
    cases Except.ok.inj h'
  | _ => cases Except.ok.inj h'

theorem raceCall_text (k : TextKind) : (raceCall k).text ≠ .ok none := by
  by_cases hk : k = .address
  · subst hk
    intro h
    have : getSecondaryAddress (rsp 0x72 hdr) = .ok (some (cs! "1234567824400107")) := by decide +kernel
    exact nomatch Except.ok.inj (this.symm.trans h)
  · exact text_some _ (by rw [(raceCall_proper k).1]; exact hk)

theorem reach_sometimes (k : TextKind) (b : SBuf) (hb : b ∈ always k ++ sometimes k) (s : Statics) (hs : Sized s) : Reaches (raceCall k).prog s b := by
  obtain ⟨hk, hp⟩ := raceCall_proper k
  rw [List.mem_append] at hb
  rcases hb with hb | hb
  · exact reach_always _ hp (raceCall_text k) b (by rw [hk]; exact hb) s hs
  · obtain ⟨x, hx⟩ : ∃ x, (raceCall k).prog.exec s = .ok x := by
      obtain ⟨_, _, h⟩ := C112_stateless _ hp
      obtain ⟨p, s', h, _⟩ := h s hs
      exact ⟨_, exec_call _ hp hs h⟩
    obtain ⟨p1, p2, p3⟩ := sample_prefixed
    cases k with
    | vif => rw [List.mem_singleton.mp hb]; exact reach_vif (by decide +kernel) hs
    | vib => rw [List.mem_singleton.mp hb]; exact reach_vib p1 hs hx
    | unit => rw [List.mem_singleton.mp hb]; exact reach_unit p1 hs hx
    | recordXml =>
      obtain ⟨h1, h2⟩ := reach_fields p2 p3 hs hx
      simp only [sometimes, List.mem_cons, List.not_mem_nil, or_false] at hb
      rcases hb with rfl | rfl
      · exact h2 p1
      · exact h1
    | _ => cases hb

/-- C127: the families cannot be made smaller.  For any two functions of one family there are calls and a schedule that leads to a data race, both threads about to store into the same
byte. -/
theorem C127_race (k d : TextKind) (h : Related k d) (s : Statics) (hs : Sized s) : ∃ c e : TextCall, c.kind = k ∧ e.kind = d ∧ c.Proper ∧ e.Proper ∧
    ∃ sched r, (twoThreads s c e).run sched = .ok r ∧ r.Race := by
  obtain ⟨k1, k2⟩ := raceCall_proper k
  obtain ⟨d1, d2⟩ := raceCall_proper d
  obtain ⟨b, h1, h2⟩ : ∃ b, b ∈ always k ++ sometimes k ∧ b ∈ always d ++ sometimes d := by
    have find : ∀ f ∈ families, ∀ k ∈ f, ∀ d ∈ f, ∃ b ∈ always k ++ sometimes k, b ∈ always d ++ sometimes d := by decide
    obtain ⟨f, h1, h2, h3⟩ := h
    obtain ⟨b, h4, h5⟩ := find f h1 k h2 d h3
    exact ⟨b, h4, h5⟩
  exact ⟨_, _, k1, d1, k2, d2, race_of (fun s hs => reach_sometimes k b h1 s hs) (fun s hs => reach_sometimes d b h2 s hs) s hs⟩

/-! Direct instances: one thread labels and decodes records while others name manufacturers, media and secondary addresses; two threads that both ask for the secondary address of a
telegram. -/

def threeThreads : Nat → List TextCall
  | 0 => [.unit (sampleRec 2), .value (sampleRec 2), .unit (sampleRec 0), .function (sampleRec 0)]
  | 1 => [.manufacturer 0x77 0x04, .medium 7, .headerXml (List.replicate 768 0) VarHeader.zero, .manufacturer 0x24 0x40]
  | 2 => [.address (rsp 0x72 hdr), .error 1]
  | _ => []

example := C127_apart threeThreads (by
    intro i c hc
    have d2 : Delivered (sampleRec 2) := sampleRec_delivered 2 (by decide)
    have d0 : Delivered (sampleRec 0) := sampleRec_delivered 0 (by decide)
    match i, hc with
    | 0, hc =>
      simp only [threeThreads, List.mem_cons, List.not_mem_nil, or_false] at hc
      rcases hc with rfl | rfl | rfl | rfl
      · exact d2
      · exact d2
      · exact d0
      · trivial
    | 1, hc =>
      simp only [threeThreads, List.mem_cons, List.not_mem_nil, or_false] at hc
      rcases hc with rfl | rfl | rfl | rfl
      · trivial
      · trivial
      · exact List.length_replicate
      · trivial
    | 2, hc =>
      simp only [threeThreads, List.mem_cons, List.not_mem_nil, or_false] at hc
      rcases hc with rfl | rfl
      · exact (raceCall_proper .address).2
      · trivial
    | _ + 3, hc => cases hc)
  (by
    have key : ∀ i c, c ∈ threeThreads i → (i = 0 ∧ c.kind ∈ [TextKind.unit, .value, .function]) ∨ (i = 1 ∧ c.kind ∈ [TextKind.manufacturer, .medium, .headerXml]) ∨
        (i = 2 ∧ c.kind ∈ [TextKind.address, .error]) := by
      intro i c hc
      match i, hc with
      | 0, hc =>
        simp only [threeThreads, List.mem_cons, List.not_mem_nil, or_false] at hc
        rcases hc with rfl | rfl | rfl | rfl <;> exact .inl ⟨rfl, by decide⟩
      | 1, hc =>
        simp only [threeThreads, List.mem_cons, List.not_mem_nil, or_false] at hc
        rcases hc with rfl | rfl | rfl | rfl <;> exact .inr (.inl ⟨rfl, by decide⟩)
      | 2, hc =>
        simp only [threeThreads, List.mem_cons, List.not_mem_nil, or_false] at hc
        rcases hc with rfl | rfl <;> exact .inr (.inr ⟨rfl, by decide⟩)
      | _ + 3, hc => cases hc
    have sym : ∀ k d, ¬ Related k d → ¬ Related d k := fun k d h ⟨f, h1, h2, h3⟩ => h ⟨f, h1, h3, h2⟩
    have a1 : ∀ k ∈ [TextKind.unit, .value, .function], ∀ m ∈ [TextKind.manufacturer, .medium, .headerXml], ¬ (∃ f ∈ families, k ∈ f ∧ m ∈ f) := by decide
    have a2 : ∀ k ∈ [TextKind.unit, .value, .function], ∀ m ∈ [TextKind.address, .error], ¬ (∃ f ∈ families, k ∈ f ∧ m ∈ f) := by decide
    have a3 : ∀ k ∈ [TextKind.manufacturer, .medium, .headerXml], ∀ m ∈ [TextKind.address, .error], ¬ (∃ f ∈ families, k ∈ f ∧ m ∈ f) := by decide
    intro i j hij c hc d hd
    rcases key i c hc with ⟨rfl, h1⟩ | ⟨rfl, h1⟩ | ⟨rfl, h1⟩ <;> rcases key j d hd with ⟨rfl, h2⟩ | ⟨rfl, h2⟩ | ⟨rfl, h2⟩
    · exact absurd rfl hij
    · exact a1 _ h1 _ h2
    · exact a2 _ h1 _ h2
    · exact sym _ _ (a1 _ h2 _ h1)
    · exact absurd rfl hij
    · exact a3 _ h1 _ h2
    · exact sym _ _ (a2 _ h2 _ h1)
    · exact sym _ _ (a3 _ h2 _ h1)
    · exact absurd rfl hij)
  Statics.zero (fun _ => List.length_replicate)

example := C127_swapped (.address (rsp 0x72 hdr)) (.address (rsp 0x72 (hdr.set 0 0x79))) (raceCall_proper .address).2 ⟨some (cs! "1234567924400107"), by decide +kernel⟩ rfl (by decide)
  (cs! "1234567824400107") (cs! "1234567924400107") (by decide +kernel) (by decide +kernel) Statics.zero (fun _ => List.length_replicate)

example := C127_race_always (.headerXml (List.replicate 768 0) VarHeader.zero) (.medium 7) List.length_replicate trivial (text_some _ (by decide)) (text_some _ (by decide)) rfl
  Statics.zero (fun _ => List.length_replicate)
example := C127_race .unit .vif (by unfold Related; decide) Statics.zero (fun _ => List.length_replicate)

end Mbus
