import Verif.Lemmas.Double
import Verif.Spec.Lifecycle
import Verif.Lemmas.Value
/- Property theorems C83 (descriptors), C84 (memory of handles), C85 (baud rates), C86 (TCP timeout). -/
namespace Mbus
open Spec

theorem others_opened (p : Proc) (d : Int) : others (p.opened d true) = others p := rfl
theorem mine_opened (p : Proc) (d : Int) : mine (p.opened d true) = d :: mine p := rfl

theorem mem_fds_of_mine {p : Proc} {d : Int} (h : d ∈ mine p) : (d, true) ∈ p.fds := by
  unfold mine at h
  obtain ⟨⟨x, b⟩, hx, rfl⟩ := List.mem_map.mp h
  have := List.mem_filter.mp hx
  simp only at this
  rw [← this.2]; exact this.1

theorem mem_fds_of_others {p : Proc} {d : Int} (h : d ∈ others p) : (d, false) ∈ p.fds := by
  unfold others at h
  obtain ⟨⟨x, b⟩, hx, rfl⟩ := List.mem_map.mp h
  have := List.mem_filter.mp hx
  simp only [Bool.not_eq_eq_eq_not, Bool.not_true] at this
  rw [← this.2]; exact this.1

theorem close_mine (p : Proc) (d : Int) : mine (p.close d) = (mine p).filter (· ≠ d) := by
  unfold mine Proc.close
  simp only [List.filter_filter, List.filter_map]
  congr 1
  apply List.filter_congr
  intro x _
  simp [Bool.and_comm]

theorem close_others (p : Proc) (d : Int) : others (p.close d) = (others p).filter (· ≠ d) := by
  unfold others Proc.close
  simp only [List.filter_filter, List.filter_map]
  congr 1
  apply List.filter_congr
  intro x _
  simp [Bool.and_comm]

theorem filter_ne_self (l : List Int) (d : Int) (h : d ∉ l) : l.filter (· ≠ d) = l := by
  rw [List.filter_eq_self]
  intro x hx
  simp only [decide_eq_true_eq]
  intro e; subst e; exact h hx

theorem not_others_of_fresh {p : Proc} {d : Int} (h : Fresh p d) : d ∉ others p :=
  fun hd => h.2 _ (mem_fds_of_others hd) rfl
theorem not_mine_of_fresh {p : Proc} {d : Int} (h : Fresh p d) : d ∉ mine p :=
  fun hd => h.2 _ (mem_fds_of_mine hd) rfl

theorem open_close {p : Proc} {d : Int} (h : Fresh p d) : (p.opened d true).close d = p := by
  unfold Proc.opened Proc.close
  simp only [List.filter_cons, ne_eq, not_true_eq_false, decide_false, Bool.false_eq_true, if_false]
  have : p.fds.filter (fun x => decide (¬ x.1 = d)) = p.fds := by
    rw [List.filter_eq_self]
    intro x hx
    simpa using h.2 x hx
  rw [this]

theorem connectLoop_spec (rs : List (Option (Int × Bool))) (fd : Int) (p : Proc)
    (h : ∀ x ∈ rs, ∀ d ok, x = some (d, ok) → Fresh p d) :
    (∃ d, Fresh p d ∧ connectLoop rs fd p = (true, d, p.opened d true)) ∨ ∃ d, connectLoop rs fd p = (false, d, p) := by
  induction rs generalizing fd with
  | nil => exact .inr ⟨fd, rfl⟩
  | cons x rs ih =>
    have hrs : ∀ x ∈ rs, ∀ d ok, x = some (d, ok) → Fresh p d := fun y hy => h y (List.mem_cons_of_mem _ hy)
    cases x with
    | none => exact ih (-1) hrs
    | some y =>
      obtain ⟨d, ok⟩ := y
      have hd := h _ (List.mem_cons_self) d ok rfl
      unfold connectLoop
      cases ok with
      | true => exact .inl ⟨d, hd, by simp⟩
      | false =>
        simp only [Bool.false_eq_true, if_false]
        rw [open_close hd]
        exact ih d hrs

/-- One attempt to connect: refused and the process is as before, or one descriptor more, the handle's. -/
theorem connect_spec (h : Hnd) (a : OsAnswer) (p : Proc) (ha : AnswerOk p a) :
    (∃ h', connect h a p = (-1, h', p) ∧ h'.serial = h.serial ∧ (h.serial → h'.fd < 0)) ∨
    ∃ h', Fresh p h'.fd ∧ connect h a p = (0, h', p.opened h'.fd true) ∧ h'.serial = h.serial := by
  unfold connect
  split
  · unfold serialConnect
    split
    · rename_i hd
      exact .inl ⟨_, rfl, rfl, fun _ => hd⟩
    · exact .inr ⟨{ h with fd := a.dev, term := ⟨2400, 3⟩ }, ha.1 (by omega), rfl, rfl⟩
  · rename_i hs
    unfold tcpConnect
    split
    · rcases connectLoop_spec a.socks h.fd p ha.2 with ⟨d, hd, e⟩ | ⟨d, e⟩ <;> rw [e]
      · exact .inr ⟨{ h with fd := d }, hd, rfl, rfl⟩
      · exact .inl ⟨{ h with fd := d }, rfl, rfl, fun h => absurd h hs⟩
    · exact .inl ⟨h, rfl, rfl, fun h => absurd h hs⟩

/-- The invariant of legal histories. -/
def Held (ph : Phase) (h : Hnd) (p : Proc) : Prop :=
  ProcOk p ∧ mine p = (if ph = .up then [h.fd] else []) ∧ (ph = .up → 0 ≤ h.fd) ∧
  (ph = .down ∨ ph = .refused ∧ h.serial = true → h.fd < 0)

theorem Spec.ProcOk.opened {p : Proc} {d : Int} {b : Bool} (h : ProcOk p) (hd : Fresh p d) : ProcOk { p with fds := (d, b) :: p.fds } := by
  refine ⟨?_, h.2⟩
  simp only [List.map_cons, List.nodup_cons]
  refine ⟨fun hm => ?_, h.1⟩
  obtain ⟨x, hx, e⟩ := List.mem_map.mp hm
  exact hd.2 x hx e

theorem Spec.ProcOk.filtered {p : Proc} {f : Int × Bool → Bool} (h : ProcOk p) : ProcOk { p with fds := p.fds.filter f } :=
  ⟨h.1.sublist ((List.filter_sublist).map _), h.2⟩

theorem disjoint {p : Proc} (h : ProcOk p) {d : Int} (hm : d ∈ mine p) : d ∉ others p := by
  intro ho
  have h1 := mem_fds_of_mine hm
  have h2 := mem_fds_of_others ho
  have hn := h.1
  generalize p.fds = l at h1 h2 hn
  induction l with
  | nil => simp at h1
  | cons x l ih =>
    simp only [List.map_cons, List.nodup_cons] at hn
    rcases List.mem_cons.mp h1 with h1 | h1
    · rcases List.mem_cons.mp h2 with h2 | h2
      · rw [← h1] at h2; simp at h2
      · exact hn.1 (List.mem_map.mpr ⟨_, h2, by rw [← h1]⟩)
    · rcases List.mem_cons.mp h2 with h2 | h2
      · exact hn.1 (List.mem_map.mpr ⟨_, h1, by rw [← h2]⟩)
      · exact ih h1 h2 hn.2

theorem history_held {ph h p es ph' h' p'} (H : History ph h p es ph' h' p') (hp : Held ph h p) :
    Held ph' h' p' ∧ others p' = undisturbed (others p) es ∧ p'.live = p.live ∧ p'.next = p.next ∧
      (h'.self, h'.aux, h'.name, h'.serial, h'.st) = (h.self, h.aux, h.name, h.serial, h.st) := by
  induction H with
  | nil => exact ⟨hp, rfl, rfl, rfl, rfl⟩
  | @connect ph h p a r h1 p1 es ph' h2 p2 hph ha hc _ ih =>
    have hid : (h1.self, h1.aux, h1.name, h1.serial, h1.st) = (h.self, h.aux, h.name, h.serial, h.st) := by
      unfold connect serialConnect tcpConnect at hc
      simp only at hc
      split at hc
      · split at hc <;> (simp only [Prod.mk.injEq] at hc; rw [← hc.2.1])
      · split at hc
        · split at hc <;> (simp only [Prod.mk.injEq] at hc; rw [← hc.2.1])
        · simp only [Prod.mk.injEq] at hc; rw [← hc.2.1]
    obtain ⟨k1, k2, k3, k4⟩ := hp
    rw [if_neg hph] at k2
    rcases connect_spec h a p ha with ⟨h', e, es', ef⟩ | ⟨h', hf, e, es'⟩
    · rw [hc] at e
      injection e with e1 e2
      injection e2 with e2 e3
      subst e1 e2 e3
      have := ih ⟨k1, k2, by simp, fun hh => ef (by rw [← es']; simpa using hh)⟩
      rw [hid] at this
      exact this
    · rw [hc] at e
      injection e with e1 e2
      injection e2 with e2 e3
      subst e1 e2 e3
      have := ih ⟨Spec.ProcOk.opened k1 hf, by rw [mine_opened, k2]; rfl, fun _ => hf.1, by simp⟩
      rw [hid] at this
      exact this
  | @disconnect ph h p r h1 p1 es ph' h2 p2 hl hc _ ih =>
    obtain ⟨k1, k2, k3, k4⟩ := hp
    unfold disconnect at hc
    split at hc
    · rename_i hneg
      injection hc with e1 e2
      injection e2 with e2 e3
      subst e1 e2 e3
      have hph : ph ≠ .up := fun e => by have := k3 e; omega
      exact ih ⟨k1, by simpa [hph] using k2, by simp [hph], by simpa [hph] using k4⟩
    · rename_i hneg
      have hup : ph = .up := by
        rcases hl with h | h | h
        · exact h
        · exact absurd (k4 (.inl h)) hneg
        · exact absurd (k4 (.inr h)) hneg
      injection hc with e1 e2
      injection e2 with e2 e3
      subst e1 e2 e3
      rw [if_pos hup] at k2
      have hd := disjoint k1 (d := h.fd) (by rw [k2]; simp)
      obtain ⟨i1, i2, i3, i4, i5⟩ := ih ⟨Spec.ProcOk.filtered k1, by rw [close_mine, k2]; simp, by simp, fun _ => by show (-1 : Int) < 0; decide⟩
      refine ⟨i1, ?_, i3, i4, i5⟩
      rw [i2, close_others, filter_ne_self _ _ hd]
      rfl
  | @otherOpen ph h p d es ph' h' p' hd _ ih =>
    obtain ⟨k1, k2, k3, k4⟩ := hp
    exact ih ⟨Spec.ProcOk.opened k1 hd, k2, k3, k4⟩
  | @otherClose ph h p d es ph' h' p' hd _ ih =>
    obtain ⟨k1, k2, k3, k4⟩ := hp
    have hm : d ∉ mine p := fun h => disjoint k1 h hd
    obtain ⟨i1, i2, i3, i4, i5⟩ := ih ⟨Spec.ProcOk.filtered k1, by
      have := close_mine p d
      unfold Proc.close at this
      rw [this, filter_ne_self _ _ hm, k2], k3, k4⟩
    refine ⟨i1, ?_, i3, i4, i5⟩
    rw [i2]
    have := close_others p d
    unfold Proc.close at this
    rw [this]
    rfl

/-- C83 (partial: histories in `History`; see the violations for the others): from a new handle, whatever its uninitialised fields
contain, after any history the handle holds exactly one descriptor if connected and none otherwise, descriptors of other code are
as if the library had done nothing, and `mbus_disconnect` returns 0 and closes the handle's descriptor if connected, -1 without
effect if disconnected before (serial: or refused). -/
theorem C83_descriptors_partial (h0 h : Hnd) (p0 p : Proc) (es : List Event) (ph : Phase) (hp : ProcOk p0) (hm : mine p0 = [])
    (H : History .never h0 p0 es ph h p) :
    mine p = (if ph = .up then [h.fd] else []) ∧ others p = undisturbed (others p0) es ∧
    (ph = .up → ∃ h' p', disconnect h p = (0, h', p') ∧ mine p' = [] ∧ others p' = others p ∧ h'.fd = -1) ∧
    (ph = .down ∨ (ph = .refused ∧ h.serial = true) → disconnect h p = (-1, h, p)) := by
  obtain ⟨⟨k1, k2, k3, k4⟩, k5, _⟩ := history_held H ⟨hp, by simpa using hm, by simp, by simp⟩
  refine ⟨k2, k5, fun hup => ?_, fun hd => ?_⟩
  · have hge := k3 hup
    refine ⟨{ h with fd := -1 }, p.close h.fd, by unfold disconnect; rw [if_neg (by omega)], ?_, ?_, rfl⟩
    · rw [close_mine, k2, if_pos hup]; simp
    · rw [close_others, filter_ne_self]
      exact disjoint k1 (by rw [k2, if_pos hup]; simp)
  · unfold disconnect; rw [if_pos (k4 hd)]

/-- C83 is false after a refused TCP connection: the descriptor number of the closed socket is kept, and `mbus_disconnect` closes
whatever has got this number since (here: descriptor 5 of other code). -/
theorem C83_stale_violation (h : Hnd) (hs : h.serial = false) (p : Proc) (hf : Fresh p 5) :
    ∃ h1 p1 p2, connect h ⟨-1, true, [some (5, false)]⟩ p = (-1, h1, p) ∧ p1 = { p with fds := (5, false) :: p.fds } ∧
      disconnect h1 p1 = (0, { h1 with fd := -1 }, p2) ∧ 5 ∈ others p1 ∧ 5 ∉ others p2 := by
  refine ⟨{ h with fd := 5 }, _, _, ?_, rfl, rfl, ?_, ?_⟩
  · unfold connect tcpConnect
    rw [if_neg (by rw [hs]; decide)]
    simp only [if_true, connectLoop, Bool.false_eq_true, if_false]
    rw [open_close hf]
  · simp [others]
  · rw [close_others]; simp

/-- C83 is false before the first connection attempt: `mbus_disconnect` closes whatever descriptor the uninitialised field names. -/
theorem C83_uninitialised_violation (p : Proc) (d : Int) (h0 : 0 ≤ d) (hd : d ∈ others p) (serial : Bool) (t : Term) :
    ∃ h p', contextNew serial true true true d t p = .ok (some h, p') ∧ d ∈ others p' ∧
      ∃ h'' p'', disconnect h p' = (0, h'', p'') ∧ d ∉ others p'' := by
  refine ⟨_, _, rfl, hd, ?_⟩
  refine ⟨_, _, by unfold disconnect; rw [if_neg (by show ¬ d < 0; omega)], ?_⟩
  rw [close_others]; simp

/-- C83: connecting twice without disconnecting loses the first descriptor: no later disconnect closes it. -/
theorem C83_reconnect_violation (h : Hnd) (hs : h.serial = true) (p : Proc) (hp : mine p = []) :
    ∃ h1 p1 h2 p2 h3 p3, connect h ⟨4, false, []⟩ p = (0, h1, p1) ∧ connect h1 ⟨5, false, []⟩ p1 = (0, h2, p2) ∧
      disconnect h2 p2 = (0, h3, p3) ∧ disconnect h3 p3 = (-1, h3, p3) ∧ mine p3 = [4] := by
  refine ⟨{ h with fd := 4, term := ⟨2400, 3⟩ }, p.opened 4 true, { h with fd := 5, term := ⟨2400, 3⟩ }, (p.opened 4 true).opened 5 true,
    { h with fd := -1, term := ⟨2400, 3⟩ }, _, ?_, ?_, rfl, rfl, ?_⟩
  · unfold connect; rw [if_pos hs]; rfl
  · unfold connect; rw [if_pos hs]; rfl
  · rw [close_mine, mine_opened, mine_opened, hp]; show List.filter (fun x => decide (x ≠ (5 : Int))) [5, 4] = [4]; decide

/-! ### C84: memory -/

theorem free_head (p : Proc) (a : Nat) (l : List Nat) (h : p.live = a :: l) : p.free a = .ok { p with live := l } := by
  unfold Proc.free
  rw [if_pos (by rw [h]; simp), h]
  simp

/-- C84: creating a handle either fails and leaves no block behind, or returns a handle with the documented default options and
three new blocks; after any legal use, freeing it releases exactly these blocks, each once. -/
theorem C84_handle_memory (serial a1 a2 a3 : Bool) (fd0 : Int) (t0 : Term) (p : Proc) (hp : ProcOk p) (hm : mine p = []) :
    ∃ r p', contextNew serial a1 a2 a3 fd0 t0 p = .ok (r, p') ∧ p'.fds = p.fds ∧ ProcOk p' ∧
      (r = none ↔ ¬ (a1 = true ∧ a2 = true ∧ a3 = true)) ∧
      (r = none → p'.live = p.live ∧ contextFree none p' = .ok p') ∧
      ∀ h, r = some h → h.serial = serial ∧ h.st = ⟨3, 1, 1⟩ ∧ (h.self :: h.aux :: h.name :: p.live).Nodup = p.live.Nodup ∧
        h.self ∉ p.live ∧ h.aux ∉ p.live ∧ h.name ∉ p.live ∧
        (∀ a, a ∈ p'.live ↔ a = h.self ∨ a = h.aux ∨ a = h.name ∨ a ∈ p.live) ∧
        ∀ es ph h2 p2, History .never h p' es ph h2 p2 → ∃ p3, contextFree (some h2) p2 = .ok p3 ∧ p3.live = p.live ∧ p3.fds = p2.fds := by
  have hlt := hp.2
  cases a1 with
  | false =>
    refine ⟨none, p, rfl, rfl, hp, by simp, fun _ => ⟨rfl, rfl⟩, by simp⟩
  | true =>
    cases a2 with
    | false =>
      refine ⟨none, { p with next := p.next + 1 }, ?_, rfl, ⟨hp.1, fun a ha => Nat.lt_succ_of_lt (hlt a ha)⟩, by simp, fun _ => ⟨rfl, rfl⟩, by simp⟩
      unfold contextNew Proc.alloc
      simp only [if_true, Bool.false_eq_true, if_false]
      rw [free_head _ _ p.live rfl]
      rfl
    | true =>
      cases a3 with
      | false =>
        refine ⟨none, { p with next := p.next + 1 + 1 }, ?_, rfl, ⟨hp.1, fun a ha => Nat.lt_succ_of_lt (Nat.lt_succ_of_lt (hlt a ha))⟩, by simp,
          fun _ => ⟨rfl, rfl⟩, by simp⟩
        unfold contextNew Proc.alloc
        simp only [if_true, Bool.false_eq_true, if_false]
        rw [free_head _ _ (p.next :: p.live) rfl, ok_bind, free_head _ _ p.live rfl]
        rfl
      | true =>
        have hok : ProcOk { p with next := p.next + 1 + 1 + 1, live := (p.next + 1 + 1) :: (p.next + 1) :: p.next :: p.live } := by
          refine ⟨hp.1, ?_⟩
          intro a ha
          simp only [List.mem_cons] at ha
          show a < p.next + 1 + 1 + 1
          rcases ha with h | h | h | h
          · omega
          · omega
          · omega
          · have := hlt a h; omega
        refine ⟨some ⟨p.next, p.next + 1, p.next + 1 + 1, serial, fd0, Settings.default, t0⟩, _, rfl, rfl, hok, by simp, by simp, ?_⟩
        intro h hh
        injection hh with hh
        subst hh
        have n0 : p.next ∉ p.live := fun h => by have := hlt _ h; omega
        have n1 : p.next + 1 ∉ p.live := fun h => by have := hlt _ h; omega
        have n2 : p.next + 1 + 1 ∉ p.live := fun h => by have := hlt _ h; omega
        refine ⟨rfl, rfl, ?_, n0, n1, n2, ?_, ?_⟩
        · apply propext
          simp only [List.nodup_cons, List.mem_cons, not_or]
          constructor
          · intro h; exact h.2.2.2
          · intro h; exact ⟨⟨by omega, by omega, n0⟩, ⟨by omega, n1⟩, n2, h⟩
        · intro a
          simp only [List.mem_cons]
          constructor
          · rintro (h | h | h | h)
            · exact .inr (.inr (.inl h))
            · exact .inr (.inl h)
            · exact .inl h
            · exact .inr (.inr (.inr h))
          · rintro (h | h | h | h)
            · exact .inr (.inr (.inl h))
            · exact .inr (.inl h)
            · exact .inl h
            · exact .inr (.inr (.inr h))
        · intro es ph h2 p2 H
          obtain ⟨_, _, e1, e2, e3⟩ := history_held H ⟨hok, hm, by simp, by simp⟩
          simp only [Prod.mk.injEq] at e3 e1
          obtain ⟨q1, q2, q3, _⟩ := e3
          unfold contextFree
          simp only
          rw [q1, q2, q3, free_head p2 _ _ e1, ok_bind, free_head _ _ (p.next :: p.live) rfl, ok_bind, free_head _ _ p.live rfl]
          exact ⟨_, rfl, rfl, rfl⟩

/-! ### C85: baud rates -/

/-- C85: a serial line accepts exactly the baud rates the library can also ask a meter to use (see C54); any other rate changes
nothing; on success the line runs at that rate with a receive timeout that covers the answer time of a meter at that rate. -/
theorem C85_baudrate (h : Hnd) (baud : Int) (ok : Bool) (line : Term) :
    ((setBaudrate h baud ok line).1 = 0 ↔ ok = true ∧ (baudCode baud).isSome) ∧
    ((baudCode baud).isNone → setBaudrate h baud ok line = (-1, h, line)) ∧
    ((setBaudrate h baud ok line).1 = 0 → (setBaudrate h baud ok line).2.2.speed = baud ∧
      Covers baud (setBaudrate h baud ok line).2.2.vtime ∧ (setBaudrate h baud ok line).2.1.term = (setBaudrate h baud ok line).2.2 ∧
      (setBaudrate h baud ok line).2.1.fd = h.fd) ∧
    ((setBaudrate h baud ok line).1 ≠ 0 → (setBaudrate h baud ok line).1 = -1 ∧ (setBaudrate h baud ok line).2.2 = line) := by
  have c : ∀ b t, (b, t) ∈ [((300 : Int), 13), (600, 8), (1200, 5), (2400, 3), (4800, 3), (9600, 2), (19200, 2), (38400, 2)] → Covers b t := by
    intro b t h
    simp only [List.mem_cons, Prod.mk.injEq, List.not_mem_nil, or_false] at h
    unfold Covers
    rcases h with ⟨rfl, rfl⟩ | ⟨rfl, rfl⟩ | ⟨rfl, rfl⟩ | ⟨rfl, rfl⟩ | ⟨rfl, rfl⟩ | ⟨rfl, rfl⟩ | ⟨rfl, rfl⟩ | ⟨rfl, rfl⟩ <;> decide +kernel
  have key : (baudTerm baud = none ∧ baudCode baud = none) ∨
      ∃ t k, baudTerm baud = some t ∧ baudCode baud = some k ∧ t.speed = baud ∧ Covers baud t.vtime := by
    unfold baudTerm baudCode
    by_cases h1 : baud = 300
    · subst h1; exact .inr ⟨_, _, rfl, rfl, rfl, c _ _ (by decide)⟩
    by_cases h2 : baud = 600
    · subst h2; exact .inr ⟨_, _, rfl, rfl, rfl, c _ _ (by decide)⟩
    by_cases h3 : baud = 1200
    · subst h3; exact .inr ⟨_, _, rfl, rfl, rfl, c _ _ (by decide)⟩
    by_cases h4 : baud = 2400
    · subst h4; exact .inr ⟨_, _, rfl, rfl, rfl, c _ _ (by decide)⟩
    by_cases h5 : baud = 4800
    · subst h5; exact .inr ⟨_, _, rfl, rfl, rfl, c _ _ (by decide)⟩
    by_cases h6 : baud = 9600
    · subst h6; exact .inr ⟨_, _, rfl, rfl, rfl, c _ _ (by decide)⟩
    by_cases h7 : baud = 19200
    · subst h7; exact .inr ⟨_, _, rfl, rfl, rfl, c _ _ (by decide)⟩
    by_cases h8 : baud = 38400
    · subst h8; exact .inr ⟨_, _, rfl, rfl, rfl, c _ _ (by decide)⟩
    exact .inl (by simp only [h1, h2, h3, h4, h5, h6, h7, h8, if_false, and_self])
  unfold setBaudrate
  rcases key with ⟨k1, k2⟩ | ⟨t, k, k1, k2, k3, k4⟩ <;> rw [k1, k2]
  · simp
  · cases ok <;> simp [k3, k4]

/-- C85: a new serial connection runs at 2400 baud with a sufficient timeout. -/
theorem C85_connect (h : Hnd) (d : Int) (p : Proc) (hd : 0 ≤ d) :
    (serialConnect h d p).2.1.term.speed = 2400 ∧ Covers 2400 (serialConnect h d p).2.1.term.vtime := by
  unfold serialConnect
  rw [if_neg (by omega)]
  exact ⟨rfl, by show Covers 2400 3; unfold Covers; decide +kernel⟩

/-! ### C86: TCP timeout and port -/

/-- The part behind the point of a `double` is a `double`, and at most 1 - 2^-53. -/
theorem double_frac (m : Rat) (hm : 0 ≤ m) (hd : IsDouble m) : IsDouble (m - (m.floor : Rat)) ∧ m - (m.floor : Rat) ≤ 1 - 1 / 2 ^ 53 := by
  obtain ⟨a, k, ha, he⟩ := hd
  have hp : (0 : Rat) < (2 : Rat) ^ k := two_zpow_pos k
  have ha0 : 0 ≤ a := by
    refine Decidable.byContradiction fun h => ?_
    have h1 : (a : Rat) < 0 := by
      have : (a : Rat) < ((0 : Int) : Rat) := Rat.intCast_lt_intCast.mpr (by omega)
      exact this
    have := Rat.mul_lt_mul_of_pos_right h1 hp
    rw [← he, Rat.zero_mul] at this
    grind
  obtain ⟨b, rfl⟩ := Int.eq_ofNat_of_zero_le ha0
  have hb : b < 2 ^ 53 := by omega
  rw [Rat.intCast_natCast] at he
  by_cases hk : 0 ≤ k
  · obtain ⟨n, rfl⟩ := Int.eq_ofNat_of_zero_le hk
    rw [two_zpow_nat, ← Rat.natCast_mul] at he
    have hf : (m.floor : Rat) = m := by
      rw [he, ← Rat.intCast_natCast, Rat.floor_intCast]
    rw [hf, show m - m = 0 by grind]
    exact ⟨⟨0, 0, by decide, by decide +kernel⟩, by decide +kernel⟩
  · obtain ⟨n, hn⟩ : ∃ n : Nat, k = -(n : Int) := ⟨k.natAbs, by omega⟩
    have hpow : (2 : Rat) ^ k * ((2 ^ n : Nat) : Rat) = 1 := by
      rw [← two_zpow_nat, hn, Rat.zpow_neg, Rat.inv_mul_cancel _ (by have := two_zpow_pos (n : Int); grind)]
    have hdiv : (b : Rat) = ((b / 2 ^ n : Nat) : Rat) * ((2 ^ n : Nat) : Rat) + ((b % 2 ^ n : Nat) : Rat) := by
      rw [← Rat.natCast_mul, ← Rat.natCast_add]
      congr 1
      rw [Nat.mul_comm]; exact (Nat.div_add_mod b (2 ^ n)).symm
    have hsum : m = ((b / 2 ^ n : Nat) : Rat) + ((b % 2 ^ n : Nat) : Rat) * (2 : Rat) ^ k := by
      rw [he]
      have : (b : Rat) * (2 : Rat) ^ k = ((b / 2 ^ n : Nat) : Rat) * ((2 : Rat) ^ k * ((2 ^ n : Nat) : Rat)) + ((b % 2 ^ n : Nat) : Rat) * (2 : Rat) ^ k := by
        rw [hdiv]; grind
      rw [this, hpow, Rat.mul_one]
    have hr : b % 2 ^ n < 2 ^ n := Nat.mod_lt _ (Nat.two_pow_pos n)
    have hr1 : ((b % 2 ^ n : Nat) : Rat) * (2 : Rat) ^ k < 1 := by
      have := Rat.mul_lt_mul_of_pos_right (Rat.natCast_lt_natCast.mpr hr) hp
      rw [Rat.mul_comm ((2 ^ n : Nat) : Rat), hpow] at this
      exact this
    have hr0 : 0 ≤ ((b % 2 ^ n : Nat) : Rat) * (2 : Rat) ^ k := Rat.mul_nonneg Rat.natCast_nonneg (Rat.le_of_lt hp)
    have hfl : m.floor = ((b / 2 ^ n : Nat) : Int) := by
      have h1 : ((b / 2 ^ n : Nat) : Int) ≤ m.floor := Rat.le_floor_iff.mpr (by rw [Rat.intCast_natCast]; grind)
      have h2 : m.floor < ((b / 2 ^ n : Nat) : Int) + 1 := Rat.floor_lt_iff.mpr (by
        rw [Rat.intCast_add, Rat.intCast_natCast]
        have : ((1 : Int) : Rat) = 1 := rfl
        grind)
      omega
    have hfrac : m - (m.floor : Rat) = ((b % 2 ^ n : Nat) : Rat) * (2 : Rat) ^ k := by
      rw [hfl, Rat.intCast_natCast]
      generalize ((b % 2 ^ n : Nat) : Rat) * (2 : Rat) ^ k = r at *
      grind
    have hle : b % 2 ^ n ≤ b := Nat.mod_le _ _
    refine ⟨⟨((b % 2 ^ n : Nat) : Int), k, by omega, by rw [hfrac, Rat.intCast_natCast]⟩, ?_⟩
    rw [hfrac]
    by_cases hn53 : n ≤ 53
    · have h1 : ((b % 2 ^ n : Nat) : Rat) + 1 ≤ ((2 ^ n : Nat) : Rat) := by
        have : ((b % 2 ^ n + 1 : Nat) : Rat) ≤ ((2 ^ n : Nat) : Rat) := Rat.natCast_le_natCast.mpr (by omega)
        rw [Rat.natCast_add] at this
        exact this
      have h2 := Rat.mul_le_mul_of_nonneg_right h1 (Rat.le_of_lt hp)
      rw [Rat.mul_comm ((2 ^ n : Nat) : Rat), hpow] at h2
      have h3 : (2 : Rat) ^ (-53 : Int) ≤ (2 : Rat) ^ k := two_zpow_mono (by omega)
      have h4 : (2 : Rat) ^ (-53 : Int) = 1 / 2 ^ 53 := by decide +kernel
      grind
    · have h1 : ((b % 2 ^ n : Nat) : Rat) ≤ ((2 ^ 53 : Nat) : Rat) := Rat.natCast_le_natCast.mpr (by omega)
      have h2 := Rat.mul_le_mul_of_nonneg_right h1 (Rat.le_of_lt hp)
      have h3 : (2 : Rat) ^ k ≤ (2 : Rat) ^ (-54 : Int) := two_zpow_mono (by omega)
      have h4 := Rat.mul_le_mul_of_nonneg_left h3 (show (0 : Rat) ≤ ((2 ^ 53 : Nat) : Rat) from Rat.natCast_nonneg)
      have h5 : ((2 ^ 53 : Nat) : Rat) * (2 : Rat) ^ (-54 : Int) ≤ 1 - 1 / 2 ^ 53 := by decide +kernel
      exact Rat.le_trans h2 (Rat.le_trans h4 h5)

/-- Rounding the product of such a fraction with a million never reaches a million. -/
theorem usec_rounding (x : Rat) (h0 : 0 ≤ x) (h1 : x ≤ 1 - 1 / 2 ^ 53) :
    0 ≤ dbl (x * 1000000) ∧ dbl (x * 1000000) < 1000000 ∧ Near (1000000 / 2 ^ 53) (x * 1000000) (dbl (x * 1000000)) := by
  have hx : 0 ≤ x * 1000000 := by grind
  have hn := dbl_near (x * 1000000)
  have hm : mag (x * 1000000) = x * 1000000 := if_neg (by grind)
  rw [hm] at hn
  have hu : halfUlp = 1 / 2 ^ 53 := rfl
  have e53 : (2 : Rat) ^ 53 = 9007199254740992 := by decide +kernel
  rw [e53] at *
  have hy := dbl_nearest (x * 1000000) (1000000 - 1 / 8589934592) ⟨8589934591999999, -33, by decide, by decide +kernel⟩
  refine ⟨?_, ?_, ?_⟩
  · have := hn.2; rw [hu] at this; grind
  · unfold mag at hy
    split at hy
    · have := hy.1; grind
    · have := hy.1; grind
  · have a := hn.1
    have b := hn.2
    rw [hu] at a b
    constructor <;> grind

/-- C86: a negative timeout is refused without effect; any other `double` below 2^31 seconds is stored as whole seconds and
microseconds, less than one microsecond (plus the rounding of one multiplication, 2^-53 s) away. -/
theorem C86_timeout_partial (neg : Bool) (m : Rat) (hm : 0 ≤ m) (hd : IsDouble m) (old : Int × Int) :
    (neg = true → 0 < m → setTimeout (.fin neg m) old = .ok (-1, old)) ∧
    ((neg = false ∨ m = 0) → m < 2147483648 → ∃ s us : Int, setTimeout (.fin neg m) old = .ok (0, (s, us)) ∧
      0 ≤ s ∧ s < 2147483648 ∧ 0 ≤ us ∧ us < 1000000 ∧
      (s : Rat) + (us : Rat) / 1000000 ≤ m + 1 / 2 ^ 53 ∧ m < (s : Rat) + ((us : Rat) + 1) / 1000000 + 1 / 2 ^ 53) := by
  constructor
  · intro h1 h2
    unfold setTimeout
    simp only
    rw [if_pos ⟨h1, h2⟩]
  · intro h1 h2
    obtain ⟨q1, q2⟩ := double_frac m hm hd
    have f1 := Rat.floor_le m
    obtain ⟨u0, u1, u2⟩ := usec_rounding (m - (m.floor : Rat)) (by grind) q2
    refine ⟨m.floor, (dbl ((m - (m.floor : Rat)) * 1000000)).floor, ?_, ?_⟩
    · unfold setTimeout
      simp only
      rw [if_neg (by rintro ⟨a, b⟩; rcases h1 with h | h; exact absurd (a.symm.trans h) (by decide); rw [h] at b; exact absurd b (by decide)),
        if_pos h2, dbl_exact q1]
    · have g1 := Rat.floor_le (dbl ((m - (m.floor : Rat)) * 1000000))
      have g2 := Rat.lt_floor_add_one (dbl ((m - (m.floor : Rat)) * 1000000))
      have a1 : 0 ≤ m.floor := Rat.le_floor_iff.mpr hm
      have a2 : 0 ≤ (dbl ((m - (m.floor : Rat)) * 1000000)).floor := Rat.le_floor_iff.mpr u0
      obtain ⟨u2, u3⟩ := u2
      generalize dbl ((m - (m.floor : Rat)) * 1000000) = d at *
      have e53 : (2 : Rat) ^ 53 = 9007199254740992 := by decide +kernel
      rw [e53] at *
      refine ⟨a1, ?_, a2, ?_, ?_, ?_⟩
      · exact Rat.floor_lt_iff.mpr h2
      · exact Rat.floor_lt_iff.mpr u1
      · grind
      · rw [Rat.intCast_add] at g2
        have : ((1 : Int) : Rat) = 1 := rfl
        grind

/-- C86 is not defined for a timeout of 2^31 seconds or more, infinity or NaN: the conversion to `int` is undefined. -/
theorem C86_timeout_violation (old : Int × Int) : setTimeout (.fin false 2147483648) old = .error .overflow ∧
    setTimeout (.inf false) old = .error .overflow ∧ setTimeout (.nan false) old = .error .overflow := ⟨by
      unfold setTimeout; simp only; rw [if_neg (by decide), if_neg (by decide)], rfl, rfl⟩

/-- C86: the six-byte port text is never cut. -/
theorem C86_port (port : Nat) (h : port < 65536) : portText port = fmtInt port := by
  unfold portText
  apply List.take_of_length_le
  unfold fmtInt
  rw [if_neg (by omega)]
  exact decDigits_length _ 5 (by decide) (by omega)

/-! Concrete cases. -/

def sampleHnd (serial : Bool) : Hnd := ⟨0, 1, 2, serial, 77, Settings.default, ⟨0, 0⟩⟩
def sampleProc : Proc := ⟨3, [2, 1, 0], [(0, false), (1, false)]⟩

/-- A history with a refused attempt, a connection, foreign activity, a disconnection and a repeated disconnection. -/
example : ∃ h p, ProcOk sampleProc ∧ mine sampleProc = [] ∧
    History .never (sampleHnd false) sampleProc [.connect ⟨-1, true, [none, some (4, false)]⟩, .otherOpen 4,
      .connect ⟨-1, true, [some (5, true)]⟩, .otherClose 4, .disconnect, .disconnect] .down h p ∧ others p = [0, 1] := by
  refine ⟨{ sampleHnd false with fd := -1 }, sampleProc, ⟨by decide, by decide⟩, by decide, ?_, by decide⟩
  · refine .connect (by decide) ⟨fun h => absurd h (by decide), ?_⟩ rfl (.otherOpen ?_ (.connect (by decide) ⟨fun h => absurd h (by decide), ?_⟩ rfl (.otherClose (by decide)
      (.disconnect (.inl rfl) rfl (.disconnect (.inr (.inl rfl)) rfl .nil)))))
    · intro x hx d ok e
      subst e
      simp only [List.mem_cons, reduceCtorEq, Option.some.injEq, Prod.mk.injEq, List.not_mem_nil, or_false, false_or] at hx
      obtain ⟨rfl, rfl⟩ := hx
      exact ⟨by decide, by decide⟩
    · exact ⟨by decide, by decide⟩
    · intro x hx d ok e
      subst e
      simp only [List.mem_cons, Option.some.injEq, Prod.mk.injEq, List.not_mem_nil, or_false] at hx
      obtain ⟨rfl, rfl⟩ := hx
      exact ⟨by decide, by decide⟩
example : setBaudrate (sampleHnd true) 9600 true ⟨2400, 3⟩ = (0, { sampleHnd true with term := ⟨9600, 2⟩ }, ⟨9600, 2⟩) := rfl
example : setTimeout (.fin false (5 / 2)) (4, 0) = .ok (0, (2, 500000)) ∧ IsDouble (5 / 2) := ⟨by decide +kernel, 5, -1, by decide, by decide +kernel⟩
-- the largest `double` below 1: 999999 microseconds
example : setTimeout (.fin false (1 - 1 / 2 ^ 53)) (4, 0) = .ok (0, (0, 999999)) := by decide +kernel
example : Fresh sampleProc 5 ∧ 1 ∈ others sampleProc := ⟨⟨by decide, by decide⟩, by decide⟩

/-! Direct instances of the theorems above. -/

example (h : Hnd) (p : Proc) (es : List Event) (ph : Phase) (H : History .never (sampleHnd true) sampleProc es ph h p) :=
  C83_descriptors_partial _ _ _ _ es ph ⟨by decide, by decide⟩ (by decide) H
example (t0 : Term) := C84_handle_memory true true true true 77 t0 sampleProc ⟨by decide, by decide⟩ (by decide)
example := C85_connect (sampleHnd true) 5 sampleProc (by decide)
example := C86_timeout_partial false (5 / 2) (by decide +kernel) ⟨5, -1, by decide, by decide +kernel⟩ (4, 0)

end Mbus
