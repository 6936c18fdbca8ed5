import Verif.Spec.Main
import Verif.Props.Lifecycle
/- Lemmas about the common parts of the command line tools (C116, C117). -/
namespace Mbus
open Spec

theorem contextNew_some (serial : Bool) (fd0 : Int) (t0 : Term) (p : Proc) :
    contextNew serial true true true fd0 t0 p =
      .ok (some ⟨p.next, p.next + 1, p.next + 2, serial, fd0, Settings.default, t0⟩,
        ⟨p.next + 3, (p.next + 2) :: (p.next + 1) :: p.next :: p.live, p.fds⟩) := rfl

theorem contextNew_none (serial a1 a2 a3 : Bool) (fd0 : Int) (t0 : Term) (p : Proc) (h : ¬ (a1 = true ∧ a2 = true ∧ a3 = true)) :
    ∃ p', contextNew serial a1 a2 a3 fd0 t0 p = .ok (none, p') := by
  cases a1 with
  | false => exact ⟨_, rfl⟩
  | true =>
    cases a2 with
    | false =>
      refine ⟨{ p with next := p.next + 1 }, ?_⟩
      unfold contextNew Proc.alloc
      simp only [if_true, Bool.false_eq_true, if_false]
      rw [free_head _ _ p.live rfl]
      rfl
    | true =>
      cases a3 with
      | false =>
        refine ⟨{ p with next := p.next + 1 + 1 }, ?_⟩
        unfold contextNew Proc.alloc
        simp only [if_true, Bool.false_eq_true, if_false]
        rw [free_head _ _ (p.next :: p.live) rfl, ok_bind, free_head _ _ p.live rfl]
        rfl
      | true => exact absurd ⟨rfl, rfl, rfl⟩ h

theorem finish_eq {σ : Type} (text : List Byte) (serial : Bool) (d : Int) (st : Settings) (t : Term) (p : Proc) (hd : Fresh p d) (e : Exit σ) :
    finish text ⟨p.next, p.next + 1, p.next + 2, serial, d, st, t⟩
      ⟨p.next + 3, (p.next + 2) :: (p.next + 1) :: p.next :: p.live, (d, true) :: p.fds⟩ e = .ok (ending { p with next := p.next + 3 } text e) := by
  unfold finish ending
  by_cases hz : e.code = 0
  · rw [if_pos hz, if_pos hz, hz]
    unfold disconnect
    rw [if_neg (by show ¬ d < 0; have := hd.1; omega)]
    dsimp only
    have hc : Proc.close ⟨p.next + 3, (p.next + 2) :: (p.next + 1) :: p.next :: p.live, (d, true) :: p.fds⟩ d =
        ⟨p.next + 3, (p.next + 2) :: (p.next + 1) :: p.next :: p.live, p.fds⟩ := by
      have := open_close (p := ⟨p.next + 3, (p.next + 2) :: (p.next + 1) :: p.next :: p.live, p.fds⟩) (d := d) ⟨hd.1, hd.2⟩
      exact this
    rw [hc]
    unfold contextFree
    dsimp only
    rw [free_head _ _ _ rfl, ok_bind, free_head _ _ _ rfl, ok_bind, free_head _ _ _ rfl, ok_bind]
  · rw [if_neg hz, if_neg hz]

theorem baud_known {b : Int} (h : b ∈ [300, 600, 1200, 2400, 4800, 9600, 19200, 38400]) : ∃ t, baudTerm b = some t := by
  simp only [List.mem_cons, List.not_mem_nil, or_false] at h
  rcases h with rfl | rfl | rfl | rfl | rfl | rfl | rfl | rfl <;> exact ⟨_, rfl⟩

theorem baud_unknown {b : Int} (h : b ∉ [300, 600, 1200, 2400, 4800, 9600, 19200, 38400]) : baudTerm b = none := by
  simp only [List.mem_cons, List.not_mem_nil, or_false, not_or] at h
  obtain ⟨h1, h2, h3, h4, h5, h6, h7, h8⟩ := h
  unfold baudTerm
  rw [if_neg h1, if_neg h2, if_neg h3, if_neg h4, if_neg h5, if_neg h6, if_neg h7, if_neg h8]

theorem connect_device (self aux name : Nat) (fd : Int) (st : Settings) (t : Term) (a : OsAnswer) (p : Proc) (h : 0 ≤ a.dev) :
    connect ⟨self, aux, name, true, fd, st, t⟩ a p = (0, ⟨self, aux, name, true, a.dev, st, ⟨2400, 3⟩⟩, p.opened a.dev true) := by
  unfold connect serialConnect
  rw [if_pos rfl, if_neg (by omega)]

theorem connect_no_device (self aux name : Nat) (fd : Int) (st : Settings) (t : Term) (a : OsAnswer) (p : Proc) (h : a.dev < 0) :
    connect ⟨self, aux, name, true, fd, st, t⟩ a p = (-1, ⟨self, aux, name, true, a.dev, st, t⟩, p) := by
  unfold connect serialConnect
  rw [if_pos rfl, if_pos h]

theorem setBaudrate_ok (h : Hnd) (b : Int) (line t : Term) (ht : baudTerm b = some t) : setBaudrate h b true line = (0, { h with term := t }, t) := by
  unfold setBaudrate
  rw [ht]
  rfl

theorem setBaudrate_fails (h : Hnd) (b : Int) (ok : Bool) (line : Term) (hb : ¬ (ok = true ∧ b ∈ [300, 600, 1200, 2400, 4800, 9600, 19200, 38400])) :
    ∃ h', setBaudrate h b ok line = (-1, h', line) := by
  unfold setBaudrate
  cases ht : baudTerm b with
  | none => exact ⟨_, rfl⟩
  | some t =>
    cases ok with
    | false => exact ⟨_, rfl⟩
    | true =>
      have : b ∉ [300, 600, 1200, 2400, 4800, 9600, 19200, 38400] := fun h => hb ⟨rfl, h⟩
      rw [baud_unknown this] at ht
      cases ht

theorem onSerial_usable {σ : Type} (uninit : Buf 256) (os : Os) (world : Target → Int → Ops σ) (searched device : Arg) (baud : Int) (p : Proc) (s : σ)
    (work : Ops σ → Settings → σ → C (Exit σ)) (hu : Usable os (.serial device baud)) (ha : AnswerOk p os.answer) :
    onSerial uninit os world searched device baud p s work =
      (work (world (.serial device baud) 1) ⟨3, 1, 1⟩ s >>= fun e => stdoutText uninit searched e.out >>= fun t => .ok (ending { p with next := p.next + 3 } t e)) := by
  obtain ⟨⟨h1, h2, h3⟩, hd, htc, hb⟩ := hu
  obtain ⟨t, ht⟩ := baud_known hb
  unfold onSerial
  rw [h1, h2, h3, contextNew_some, ok_bind]
  simp only [connect_device _ _ _ _ _ _ _ _ hd]
  rw [if_neg (by decide)]
  simp only [htc, setBaudrate_ok _ _ _ t ht]
  rw [if_neg (by decide)]
  show (work (world (.serial device baud) 1) ⟨3, 1, 1⟩ s >>= _) = _
  congr 1
  funext e
  congr 1
  funext t
  exact finish_eq t true os.answer.dev _ _ p (ha.1 hd) e

theorem onSerial_refused {σ : Type} (uninit : Buf 256) (os : Os) (world : Target → Int → Ops σ) (searched device : Arg) (baud : Int) (p : Proc) (s : σ)
    (work : Ops σ → Settings → σ → C (Exit σ)) (hu : ¬ Usable os (.serial device baud)) :
    onSerial uninit os world searched device baud p s work = .ok ⟨1, [], s, none⟩ := by
  unfold onSerial
  by_cases hm : os.a1 = true ∧ os.a2 = true ∧ os.a3 = true
  · rw [hm.1, hm.2.1, hm.2.2, contextNew_some, ok_bind]
    by_cases hd : os.answer.dev < 0
    · simp only [connect_no_device _ _ _ _ _ _ _ _ hd]
      rw [if_pos trivial]
    · simp only [connect_device _ _ _ _ _ _ _ _ (by omega : 0 ≤ os.answer.dev)]
      rw [if_neg (by decide)]
      obtain ⟨h', hb⟩ := setBaudrate_fails ⟨p.next, p.next + 1, p.next + 2, true, os.answer.dev, Settings.default, ⟨2400, 3⟩⟩ baud os.tcset ⟨2400, 3⟩
        (fun h => hu ⟨hm, by omega, h.1, h.2⟩)
      simp only [hb]
      rw [if_pos trivial]
  · obtain ⟨p', hp⟩ := contextNew_none true os.a1 os.a2 os.a3 os.fd0 os.t0 p hm
    rw [hp, ok_bind]

theorem connectLoop_accepts (rs : List (Option (Int × Bool))) (fd : Int) (p : Proc)
    (h : ∀ x ∈ rs, ∀ d ok, x = some (d, ok) → Fresh p d) (ha : ∃ d, some (d, true) ∈ rs) :
    ∃ d, Fresh p d ∧ connectLoop rs fd p = (true, d, p.opened d true) := by
  induction rs generalizing fd with
  | nil => obtain ⟨d, h⟩ := ha; cases h
  | cons x rs ih =>
    have hrs : ∀ x ∈ rs, ∀ d ok, x = some (d, ok) → Fresh p d := fun y hy => h y (List.mem_cons_of_mem _ hy)
    cases x with
    | none =>
      refine ih (-1) hrs ?_
      obtain ⟨d, hd⟩ := ha
      rcases List.mem_cons.mp hd with hd | hd
      · cases hd
      · exact ⟨d, hd⟩
    | some y =>
      obtain ⟨d, ok⟩ := y
      have hd := h _ (List.mem_cons_self) d ok rfl
      unfold connectLoop
      cases ok with
      | true => exact ⟨d, hd, by simp⟩
      | false =>
        simp only [Bool.false_eq_true, if_false]
        rw [open_close hd]
        refine ih d hrs ?_
        obtain ⟨d', hd'⟩ := ha
        rcases List.mem_cons.mp hd' with hd' | hd'
        · cases hd'
        · exact ⟨d', hd'⟩

theorem connectLoop_rejects (rs : List (Option (Int × Bool))) (fd : Int) (p : Proc) (ha : ¬ ∃ d, some (d, true) ∈ rs) :
    ∃ d p', connectLoop rs fd p = (false, d, p') := by
  induction rs generalizing fd p with
  | nil => exact ⟨_, _, rfl⟩
  | cons x rs ih =>
    have hr : ¬ ∃ d, some (d, true) ∈ rs := fun ⟨d, hd⟩ => ha ⟨d, List.mem_cons_of_mem _ hd⟩
    cases x with
    | none => exact ih (-1) p hr
    | some y =>
      obtain ⟨d, ok⟩ := y
      cases ok with
      | true => exact absurd ⟨d, List.mem_cons_self⟩ ha
      | false =>
        unfold connectLoop
        simp only [Bool.false_eq_true, if_false]
        exact ih d _ hr

theorem connect_host (self aux name : Nat) (fd : Int) (st : Settings) (t : Term) (a : OsAnswer) (p : Proc) (hg : a.gai = true)
    (h : ∀ x ∈ a.socks, ∀ d ok, x = some (d, ok) → Fresh p d) (ha : ∃ d, some (d, true) ∈ a.socks) :
    ∃ d, Fresh p d ∧ connect ⟨self, aux, name, false, fd, st, t⟩ a p = (0, ⟨self, aux, name, false, d, st, t⟩, p.opened d true) := by
  obtain ⟨d, hd, hl⟩ := connectLoop_accepts a.socks fd p h ha
  refine ⟨d, hd, ?_⟩
  unfold connect tcpConnect
  rw [if_neg (by simp), if_pos hg]
  simp only [hl]
  rfl

theorem connect_no_host (self aux name : Nat) (fd : Int) (st : Settings) (t : Term) (a : OsAnswer) (p : Proc)
    (h : ¬ (a.gai = true ∧ ∃ d, some (d, true) ∈ a.socks)) :
    ∃ h' p', connect ⟨self, aux, name, false, fd, st, t⟩ a p = (-1, h', p') := by
  unfold connect tcpConnect
  rw [if_neg (by simp)]
  by_cases hg : a.gai = true
  · obtain ⟨d, p', hl⟩ := connectLoop_rejects a.socks fd p (fun k => h ⟨hg, k⟩)
    rw [if_pos hg]
    simp only [hl]
    exact ⟨_, _, rfl⟩
  · rw [if_neg hg]
    exact ⟨_, _, rfl⟩

theorem onTcp_usable {σ : Type} (uninit : Buf 256) (os : Os) (world : Target → Int → Ops σ) (searched host : Arg) (port : Int) (p : Proc) (s : σ)
    (work : Ops σ → Settings → σ → C (Exit σ)) (hu : Usable os (.tcp host port)) (ha : AnswerOk p os.answer) :
    onTcp uninit os world searched host port p s work =
      (work (world (.tcp host port) 1) ⟨3, 1, 1⟩ s >>= fun e => stdoutText uninit searched e.out >>= fun t => .ok (ending { p with next := p.next + 3 } t e)) := by
  obtain ⟨⟨h1, h2, h3⟩, ⟨hp1, hp2⟩, hg, hacc⟩ := hu
  unfold onTcp
  rw [if_neg (by omega), h1, h2, h3, contextNew_some, ok_bind]
  obtain ⟨d, hd, hl⟩ := connect_host p.next (p.next + 1) (p.next + 2) os.fd0 Settings.default os.t0 os.answer
    ⟨p.next + 3, (p.next + 2) :: (p.next + 1) :: p.next :: p.live, p.fds⟩ hg ha.2 hacc
  simp only [hl]
  rw [if_neg (by decide)]
  show (work (world (.tcp host port) 1) ⟨3, 1, 1⟩ s >>= _) = _
  congr 1
  funext e
  congr 1
  funext t
  exact finish_eq t false d _ _ p hd e

theorem onTcp_refused {σ : Type} (uninit : Buf 256) (os : Os) (world : Target → Int → Ops σ) (searched host : Arg) (port : Int) (p : Proc) (s : σ)
    (work : Ops σ → Settings → σ → C (Exit σ)) (hu : ¬ Usable os (.tcp host port)) :
    onTcp uninit os world searched host port p s work = .ok ⟨1, [], s, none⟩ := by
  unfold onTcp
  split
  · rfl
  rename_i hport
  by_cases hm : os.a1 = true ∧ os.a2 = true ∧ os.a3 = true
  · rw [hm.1, hm.2.1, hm.2.2, contextNew_some, ok_bind]
    obtain ⟨h', p', hl⟩ := connect_no_host p.next (p.next + 1) (p.next + 2) os.fd0 Settings.default os.t0 os.answer
      ⟨p.next + 3, (p.next + 2) :: (p.next + 1) :: p.next :: p.live, p.fds⟩ (fun h => hu ⟨hm, by omega, h.1, h.2⟩)
    simp only [hl]
    rw [if_pos trivial]
  · obtain ⟨p', hp⟩ := contextNew_none false os.a1 os.a2 os.a3 os.fd0 os.t0 p hm
    rw [hp, ok_bind]

theorem free_second (n a b : Nat) (l : List Nat) (fds : List (Int × Bool)) (h : a ≠ b) :
    Proc.free ⟨n, a :: b :: l, fds⟩ b = .ok ⟨n, a :: l, fds⟩ := by
  unfold Proc.free
  rw [if_pos (by simp)]
  rw [List.erase_cons_tail (by simpa using h)]
  simp

theorem stdoutText_single (uninit : Buf 256) (searched : Arg) (l : Line) (t : List Byte) (h : lineText uninit searched l = .ok t) :
    stdoutText uninit searched [l] = .ok t := by
  unfold stdoutText
  rw [h, ok_bind]
  unfold stdoutText
  rw [ok_bind, List.append_nil]

theorem stdoutText_append (uninit : Buf 256) (searched : Arg) (t u : List Byte) : ∀ (a b : List Line), stdoutText uninit searched a = .ok t →
    stdoutText uninit searched b = .ok u → stdoutText uninit searched (a ++ b) = .ok (t ++ u) := by
  intro a
  induction a generalizing t with
  | nil => intro b h1 h2; unfold stdoutText at h1; cases h1; exact h2
  | cons l a ih =>
    intro b h1 h2
    rw [stdoutText, bind_eq_ok] at h1
    obtain ⟨x, hx, h1⟩ := h1
    rw [bind_eq_ok] at h1
    obtain ⟨y, hy, h1⟩ := h1
    cases h1
    rw [List.cons_append, stdoutText, hx, ok_bind, ih y b hy h2, ok_bind, List.append_assoc]

theorem stdoutText_flatMap {α : Type} (uninit : Buf 256) (searched : Arg) (f : α → List Line) (g : α → List Byte)
    (h : ∀ a, stdoutText uninit searched (f a) = .ok (g a)) (l : List α) : stdoutText uninit searched (l.flatMap f) = .ok (l.flatMap g) := by
  induction l with
  | nil => rfl
  | cons a l ih => rw [List.flatMap_cons, List.flatMap_cons]; exact stdoutText_append _ _ _ _ _ _ (h a) ih

theorem stdoutText_scan (uninit : Buf 256) (searched : Arg) (addrs : List Byte) :
    stdoutText uninit searched ((List.range 251).flatMap (scanLine addrs)) = .ok ((List.range 251).flatMap (scanReport addrs)) := by
  apply stdoutText_flatMap
  intro a
  unfold scanLine scanReport
  generalize (addrs.filter (·.toNat = a)).length = n
  rcases n with _ | _ | n
  · rfl
  · exact stdoutText_single _ _ _ _ rfl
  · exact stdoutText_single _ _ _ _ rfl

end Mbus
