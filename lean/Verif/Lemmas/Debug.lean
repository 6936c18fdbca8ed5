import Verif.Model.Debug
import Verif.Lemmas.Tools
import Verif.Spec.Debug
/- Lemmas about the tools with option -d (C118). -/
namespace Mbus
open Spec

theorem Spec.Alike.bind {α β γ δ : Type} {R : α → β → Prop} {S : γ → δ → Prop} {x : C α} {y : C β} {k : α → C γ} {k' : β → C δ}
    (h : Alike R x y) (hk : ∀ a b, R a b → Alike S (k a) (k' b)) : Alike S (x >>= k) (y >>= k') := by
  cases x with
  | error e =>
    cases y with
    | error e' => exact h
    | ok b => exact h.elim
  | ok a =>
    cases y with
    | error e' => exact h.elim
    | ok b => exact hk a b h

theorem Spec.Alike.same {α γ δ : Type} {S : γ → δ → Prop} (x : C α) {k : α → C γ} {k' : α → C δ} (hk : ∀ a, Alike S (k a) (k' a)) :
    Alike S (x >>= k) (x >>= k') := by
  cases x with
  | error e => rfl
  | ok a => exact hk a

theorem Spec.Annotated.refl (out : List Line) : Annotated out out := by
  induction out with
  | nil => exact .nil
  | cons l out ih => exact .same l ih

theorem Spec.Annotated.append {a a' b b' : List Line} (h : Annotated a a') (g : Annotated b b') : Annotated (a ++ b) (a' ++ b') := by
  induction h with
  | nil => exact g
  | same l _ ih => exact .same l ih
  | note t _ ih => exact .note t ih
  | dump fs _ ih => exact .dump fs ih

theorem noteIf_ann (d : Bool) (t : List Byte) : Annotated [] (noteIf d t) := by
  cases d
  · exact .nil
  · exact .note t .nil

theorem chainIf_ann (d : Bool) (fs : List Frame) : Annotated [] (chainIf d fs) := by
  cases d
  · exact .nil
  · exact .dump fs .nil

/-- additional lines -/
def Extra (d : Bool) (notes : List Line) : Prop := Annotated [] notes ∧ (d = false → notes = [])

theorem extra_nil (d : Bool) : Extra d [] := ⟨.nil, fun _ => rfl⟩

theorem extra_note (d : Bool) (t : List Byte) : Extra d (noteIf d t) := ⟨noteIf_ann d t, fun h => by rw [h]; rfl⟩

theorem extra_chain (d : Bool) (fs : List Frame) : Extra d (chainIf d fs) := ⟨chainIf_ann d fs, fun h => by rw [h]; rfl⟩

theorem Extra.append {d : Bool} {a b : List Line} (h : Extra d a) (g : Extra d b) : Extra d (a ++ b) :=
  ⟨h.1.append g.1, fun e => by rw [h.2 e, g.2 e]; rfl⟩

/-- outputs that differ by additional lines -/
def Noted (d : Bool) (a b : List Line) : Prop := Annotated a b ∧ (d = false → b = a)

theorem Noted.append {d : Bool} {a a' b b' : List Line} (h : Noted d a a') (g : Noted d b b') : Noted d (a ++ b) (a' ++ b') :=
  ⟨h.1.append g.1, fun e => by rw [h.2 e, g.2 e]⟩

theorem Noted.refl (d : Bool) (a : List Line) : Noted d a a := ⟨.refl a, fun _ => rfl⟩

theorem Extra.before {d : Bool} {n : List Line} (h : Extra d n) (out : List Line) : Noted d out (n ++ out) :=
  Noted.append (a := []) h (Noted.refl d out)

theorem Extra.after {d : Bool} {n a b : List Line} (h : Extra d n) (g : Noted d a b) : Noted d a (n ++ b) :=
  Noted.append (a := []) h g

theorem verbose_of {σ : Type} {d : Bool} {c : Int} {a b : List Line} {s : σ} (h : Noted d a b) : Verbose d (⟨c, a, s⟩ : Exit σ) ⟨c, b, s⟩ :=
  ⟨rfl, rfl, h.1, fun e => by rw [h.2 e]⟩

theorem verbose_extra {σ : Type} {d : Bool} {c : Int} {n : List Line} {s : σ} (h : Extra d n) : Verbose d (⟨c, [], s⟩ : Exit σ) ⟨c, n, s⟩ :=
  ⟨rfl, rfl, h.1, fun e => by rw [h.2 e]⟩

/-- the notes of `init_slaves` -/
def initNotes (d : Bool) : List Line :=
  noteIf d (cs! "init_slaves: debug: sending init frame #1\n") ++ noteIf d (cs! "init_slaves: debug: sending init frame #2\n")

theorem initD_alike {σ : Type} (d : Bool) (o : Ops σ) (s : σ) (second : Int) :
    Alike (fun a b => b.2 = a ∧ Extra d b.1 ∧ (a.1 = true → b.1 = initNotes d)) (initSlaves o s second) (initSlavesD d o s second) := by
  unfold initSlaves initSlavesD
  refine .same _ fun ⟨r, s⟩ => ?_
  dsimp only
  split
  · exact ⟨rfl, extra_note _ _, fun h => by cases h⟩
  · refine .same _ fun ⟨r, s⟩ => ?_
    dsimp only
    split
    · exact ⟨rfl, (extra_note _ _).append (extra_note _ _), fun h => by cases h⟩
    · exact ⟨rfl, (extra_note _ _).append (extra_note _ _), fun _ => rfl⟩

theorem maybeInitD_alike {σ : Type} (d init : Bool) (o : Ops σ) (s : σ) :
    Alike (fun a b => b.2 = a ∧ Extra d b.1 ∧ (a.1 = true → b.1 = if init then initNotes d else [])) (maybeInit init o s) (maybeInitD d init o s) := by
  unfold maybeInit maybeInitD
  cases init with
  | false => exact ⟨rfl, extra_nil d, fun _ => rfl⟩
  | true => exact initD_alike d o s 0xFD

theorem setAddressD_alike {σ : Type} (d : Bool) (junk : Frame) (o : Ops σ) (s : σ) (old new : List Byte) :
    Alike (fun e e' => Verbose d e e' ∧ (e.code = 0 → e'.out = initNotes d ++ e.out)) (setAddressTool junk o s old new) (setAddressToolD d junk o s old new) := by
  unfold setAddressTool setAddressToolD
  dsimp only
  split
  · exact ⟨verbose_of (.refl _ _), fun h => by cases h⟩
  split
  · exact ⟨verbose_of (.refl _ _), fun h => by cases h⟩
  refine (initD_alike d o s 0xFD).bind fun ⟨ok, s⟩ ⟨notes, q⟩ ⟨h1, h2, h3⟩ => ?_
  dsimp only at h1 h2 h3 ⊢
  subst h1
  dsimp only
  cases ok with
  | false => exact ⟨verbose_extra h2, fun h => by cases h⟩
  | true =>
    have h3 := h3 rfl
    subst h3
    rw [if_neg (by decide), if_neg (by decide)]
    refine .same _ fun ⟨r, s⟩ => ?_
    dsimp only
    split
    · exact ⟨verbose_extra h2, fun h => by cases h⟩
    refine .same _ fun ⟨rc, g, s⟩ => ?_
    dsimp only
    split
    · exact ⟨verbose_extra h2, fun h => by cases h⟩
    refine .same _ fun ⟨a, s⟩ => ?_
    cases a with
    | none => exact ⟨verbose_extra h2, fun h => by cases h⟩
    | some a =>
      dsimp only
      refine .same _ fun ⟨r, s⟩ => ?_
      dsimp only
      split
      · exact ⟨verbose_extra h2, fun h => by cases h⟩
      refine .same _ fun ⟨rc, g, s⟩ => ?_
      dsimp only
      split
      · exact ⟨verbose_extra h2, fun h => by cases h⟩
      split
      · exact ⟨verbose_of (h2.before _), fun _ => rfl⟩
      · exact ⟨verbose_of (h2.before _), fun _ => rfl⟩

theorem scanSecondaryD_alike {σ : Type} (d : Bool) (o : Ops σ) (st : Settings) (s : σ) (mask : List Byte) :
    Alike (fun e e' => Verbose d e e' ∧ (e.code = 0 → e'.out = initNotes d ++ e.out)) (scanSecondaryTool o st s mask) (scanSecondaryToolD d o st s mask) := by
  unfold scanSecondaryTool scanSecondaryToolD
  split
  · exact ⟨verbose_of (.refl _ _), fun h => by cases h⟩
  refine (initD_alike d o s 0xFF).bind fun ⟨ok, s⟩ ⟨notes, q⟩ ⟨h1, h2, h3⟩ => ?_
  dsimp only at h1 h2 h3 ⊢
  subst h1
  dsimp only
  cases ok with
  | false => exact ⟨verbose_extra h2, fun h => by cases h⟩
  | true =>
    have h3 := h3 rfl
    subst h3
    rw [if_neg (by decide), if_neg (by decide)]
    refine .same _ fun ⟨r, s, m, ls⟩ => ?_
    exact ⟨verbose_of (h2.before _), fun _ => rfl⟩

theorem requestFromD_alike {σ : Type} (d : Bool) (junk0 : Nat → Byte) (junk : Nat → Nat → Byte) (stamp : Option (List Byte)) (o : Ops σ) (s : σ) (a : Int) :
    Alike (fun e e' => Verbose d e e') (requestFrom junk0 junk stamp o s a) (requestFromD d junk0 junk stamp o s a) := by
  unfold requestFrom requestFromD
  refine .same _ fun ⟨r, s⟩ => ?_
  dsimp only
  split
  · exact verbose_of (.refl _ _)
  refine .same _ fun ⟨rc, g, s⟩ => ?_
  dsimp only
  split
  · exact verbose_of (.refl _ _)
  refine .same _ fun ⟨pr, x⟩ => ?_
  dsimp only
  split
  · exact verbose_extra (extra_chain _ _)
  refine .same _ fun m => ?_
  cases m with
  | none => exact verbose_extra (extra_chain _ _)
  | some m => exact .same _ fun t => verbose_of ((extra_chain _ _).before _)

theorem requestD_alike {σ : Type} (d init : Bool) (junk0 : Nat → Byte) (junk : Nat → Nat → Byte) (stamp : Option (List Byte)) (o : Ops σ) (s : σ)
    (addr : List Byte) :
    Alike (fun e e' => Verbose d e e') (requestTool init junk0 junk stamp o s addr) (requestToolD d init junk0 junk stamp o s addr) := by
  unfold requestTool requestToolD
  refine (maybeInitD_alike d init o s).bind fun ⟨ok, s⟩ ⟨notes, q⟩ ⟨h1, h2, _⟩ => ?_
  dsimp only at h1 h2 ⊢
  subst h1
  dsimp only
  split
  · exact verbose_extra h2
  refine .same _ fun ⟨a, s⟩ => ?_
  cases a with
  | none => exact verbose_extra h2
  | some a =>
    dsimp only
    have h := requestFromD_alike d junk0 junk stamp o s a
    cases hx : requestFrom junk0 junk stamp o s a with
    | error e =>
      cases hy : requestFromD d junk0 junk stamp o s a with
      | error e' => rw [hx, hy] at h; exact h
      | ok e' => rw [hx, hy] at h; exact h.elim
    | ok e =>
      cases hy : requestFromD d junk0 junk stamp o s a with
      | error e' => rw [hx, hy] at h; exact h.elim
      | ok e' =>
        rw [hx, hy] at h
        obtain ⟨c1, c2, c3, c4⟩ := h
        rw [ok_bind]
        refine ⟨c1, c2, Annotated.append (a := []) h2.1 c3, fun hd => ?_⟩
        rw [h2.2 hd, c4 hd]
        rfl

theorem multiD_alike {σ : Type} (d : Bool) (junk0 : Nat → Byte) (junk : Nat → Nat → Byte) (stamps : Nat → Option (List Byte)) (o : Ops σ) (st : Settings)
    (s : σ) (mf : Int) (addr : List Byte) :
    Alike (fun e e' => Verbose d e e') (multiTool junk0 junk stamps o st s mf addr) (multiToolD d junk0 junk stamps o st s mf addr) := by
  unfold multiTool multiToolD
  refine (initD_alike d o s 0xFD).bind fun ⟨ok, s⟩ ⟨notes, q⟩ ⟨h1, h2, _⟩ => ?_
  dsimp only at h1 h2 ⊢
  subst h1
  dsimp only
  split
  · exact verbose_extra h2
  refine .same _ fun ⟨a, s⟩ => ?_
  cases a with
  | none => exact verbose_extra h2
  | some a =>
    dsimp only
    refine .same _ fun r => ?_
    split
    · exact verbose_extra h2
    generalize r.chain.zipIdx.map (fun q => (q.1, stamps q.2)) = l
    cases l with
    | nil => exact verbose_extra h2
    | cons t ts =>
      refine .same _ fun x => ?_
      cases x.text with
      | none => exact verbose_extra (h2.append (extra_chain _ _))
      | some m => exact .same _ fun t => verbose_of ((h2.append (extra_chain _ _)).before _)

theorem pingD_alike {σ : Type} (d : Bool) (o : Ops σ) (a : Int) (n : Nat) : ∀ (s : σ) (g : Frame) (ret : Int),
    Alike (fun x y => y.2 = x ∧ Extra d y.1) (pingLoop o a n s g ret) (pingLoopD d o a n s g ret) := by
  induction n with
  | zero => intro s g ret; exact ⟨rfl, extra_nil d⟩
  | succ n ih =>
    intro s g ret
    unfold pingLoop pingLoopD
    refine .same _ fun ⟨r, s⟩ => ?_
    dsimp only
    split
    · exact ⟨rfl, extra_note _ _⟩
    refine .same _ fun ⟨ret, g, s⟩ => ?_
    dsimp only
    split
    · exact ⟨rfl, extra_note _ _⟩
    have := ih s g ret
    cases hx : pingLoop o a n s g ret with
    | error e =>
      cases hy : pingLoopD d o a n s g ret with
      | error e' => rw [hx, hy] at this; exact this
      | ok y => rw [hx, hy] at this; exact this.elim
    | ok x =>
      cases hy : pingLoopD d o a n s g ret with
      | error e' => rw [hx, hy] at this; exact this.elim
      | ok y =>
        rw [hx, hy] at this
        exact ⟨this.1, (extra_note _ _).append this.2⟩

theorem scanAddressD_alike {σ : Type} (d : Bool) (o : Ops σ) (st : Settings) (s : σ) (a : Int) :
    Alike (fun x y => y.2 = x.2 ∧ Noted d x.1 y.1) (scanAddress o st s a) (scanAddressD d o st s a) := by
  unfold scanAddress scanAddressD
  refine (pingD_alike d o a _ s Frame.zero RECV_ERROR).bind fun ⟨ret, g, s⟩ ⟨notes, q⟩ ⟨h1, h2⟩ => ?_
  dsimp only at h1 h2 ⊢
  subst h1
  dsimp only
  split
  · exact ⟨rfl, h2⟩
  split
  · exact .same _ fun _ => ⟨rfl, h2.before _⟩
  split
  · refine .same _ fun ⟨p, s⟩ => ?_
    dsimp only
    split
    · exact ⟨rfl, h2.before _⟩
    · exact ⟨rfl, h2.before _⟩
  · exact ⟨rfl, h2⟩

theorem scanFromD_alike {σ : Type} (d : Bool) (o : Ops σ) (st : Settings) (n : Nat) : ∀ (a : Nat) (s : σ),
    Alike (fun x y => y.2 = x.2 ∧ Noted d x.1 y.1) (scanFrom o st n a s) (scanFromD d o st n a s) := by
  induction n with
  | zero => intro a s; exact ⟨rfl, Noted.refl _ _⟩
  | succ n ih =>
    intro a s
    unfold scanFrom scanFromD
    refine (scanAddressD_alike d o st s a).bind fun ⟨l, s⟩ ⟨l', s'⟩ ⟨h1, h2⟩ => ?_
    dsimp only at h1 h2 ⊢
    subst h1
    refine (ih (a + 1) s').bind fun ⟨ls, s⟩ ⟨ls', s''⟩ ⟨h3, h4⟩ => ?_
    dsimp only at h3 h4 ⊢
    subst h3
    exact ⟨rfl, h2.append h4⟩

theorem scanD_alike {σ : Type} (d : Bool) (o : Ops σ) (st : Settings) (s : σ) (retries : Int) :
    Alike (fun e e' => Verbose d e e') (scanTool o st s retries) (scanToolD d o st s retries) := by
  unfold scanTool scanToolD
  dsimp only
  split
  · exact verbose_of (.refl _ _)
  refine (scanFromD_alike d o _ _ 0 s).bind fun ⟨ls, s⟩ ⟨ls', s'⟩ ⟨h1, h2⟩ => ?_
  dsimp only at h1 h2 ⊢
  subst h1
  exact verbose_of ((extra_note _ _).after h2)

/-! ### the notes of a scan on the wire -/

theorem bus_recv_sent (k : Kind) (env : Env) (b : Bus) (f : Frame) (r : Int) (g : Frame) (b' : Bus) (h : (busLink k env).recv b f = .ok (r, g, b')) :
    b'.sent = b.sent := by
  change (kindRecv k env.tty b.script f >>= _) = _ at h
  rw [bind_eq_ok] at h
  obtain ⟨out, _, h⟩ := h
  cases h
  rfl

theorem recvFrame_sent (k : Kind) (env : Env) (purge : Int) (b : Bus) (f : Frame) (r : Int) (g : Frame) (b' : Bus)
    (h : recvFrame (busLink k env) purge b f = .ok (r, g, b')) : b'.sent = b.sent := by
  unfold recvFrame at h
  rw [bind_eq_ok] at h
  obtain ⟨⟨r1, g1, t⟩, h1, h2⟩ := h
  have e1 := bus_recv_sent k env _ _ _ _ _ h1
  have once : (Except.ok (r1, g1, t) : C (Int × Frame × Bus)) = .ok (r, g, b') → b'.sent = b.sent := fun h => by
    cases h; exact e1
  have twice : (busLink k env).recv t g1 = .ok (r, g, b') → b'.sent = b.sent := fun h => by
    rw [bus_recv_sent k env _ _ _ _ _ h, e1]
  simp only at h2
  split at h2
  · split at h2
    · exact twice h2
    · exact once h2
  · split at h2
    · split at h2
      · exact twice h2
      · exact once h2
    · exact once h2

theorem ping_any (k : Kind) (env : Env) (ho : IsOpen k env) (hw : Mbus.Writable env) (purge : Int) (b : Bus) (a : Nat) (ha : a ≤ 255) :
    ∃ scr, sendPing ((busLink k env).ops purge) b a false = .ok (0, ⟨scr, b.sent ++ [pingWire (UInt8.ofNat a)]⟩) := by
  have hs := bus_send k env ho b _ _ (show Telegram.Legal (.short 0x40 (UInt8.ofNat a)) from (by decide : (0x40 : Byte) ∈ shortCodes))
    (packs_short 0x40 (UInt8.ofNat a))
  unfold sendPing
  rw [if_neg (by rw [(isPrimary_iff (a : Int)).mpr (by omega)]; decide)]
  show ∃ scr, ((busLink k env).send b { frameNew TYPE_SHORT with control := 0x40, address := UInt8.ofNat (a : Int).toNat } >>= _) = _
  rw [show (a : Int).toNat = a from rfl, hs, hw, if_pos rfl, ok_bind]
  simp only
  rw [if_neg (by decide), if_neg (by decide)]
  exact ⟨_, rfl⟩

/-- the note of a ping -/
def pingNotes (d : Bool) (a : Nat) (m : Nat) : List Line := (List.replicate m (noteIf d (fmtInt a ++ cs! " "))).flatten

section
variable (d : Bool) (k : Kind) (env : Env) (ho : IsOpen k env) (hw : Mbus.Writable env) (purge : Int)
include ho hw

theorem pingD_sent (a : Nat) (ha : a ≤ 255) (n : Nat) : ∀ (b : Bus) (g : Frame) (ret r : Int) (g' : Frame) (b' : Bus),
    pingLoop ((busLink k env).ops purge) a n b g ret = .ok (r, g', b') →
    ∃ m, b'.sent = b.sent ++ List.replicate m (pingWire (UInt8.ofNat a)) ∧
      pingLoopD d ((busLink k env).ops purge) a n b g ret = .ok (pingNotes d a m, r, g', b') := by
  induction n with
  | zero =>
    intro b g ret r g' b' h
    cases h
    exact ⟨0, by simp, rfl⟩
  | succ n ih =>
    intro b g ret r g' b' h
    obtain ⟨scr, hp⟩ := ping_any k env ho hw purge b a ha
    unfold pingLoop at h
    unfold pingLoopD
    rw [hp, ok_bind] at h
    rw [hp, ok_bind]
    dsimp only at h ⊢
    rw [if_neg (by decide)] at h
    rw [if_neg (by decide)]
    rw [bind_eq_ok] at h
    obtain ⟨⟨r1, g1, b1⟩, h1, h⟩ := h
    have hsent := recvFrame_sent k env purge _ _ _ _ _ h1
    rw [h1, ok_bind]
    dsimp only at h hsent ⊢
    by_cases hr : r1 ≠ RECV_TIMEOUT
    · rw [if_pos hr] at h
      rw [if_pos hr]
      cases h
      exact ⟨1, by rw [hsent]; rfl, by simp [pingNotes]⟩
    · rw [if_neg hr] at h
      rw [if_neg hr]
      obtain ⟨m, h2, h3⟩ := ih _ _ _ _ _ _ h
      refine ⟨m + 1, by rw [h2, hsent, List.replicate_succ]; simp, ?_⟩
      rw [h3, ok_bind]
      simp [pingNotes, List.replicate_succ]

theorem scanAddressD_sent (st : Settings) (a : Nat) (ha : a ≤ 255) (b : Bus) (l : List Line) (b' : Bus)
    (h : scanAddress ((busLink k env).ops purge) st b a = .ok (l, b')) :
    ∃ m, b'.sent = b.sent ++ List.replicate m (pingWire (UInt8.ofNat a)) ∧
      scanAddressD d ((busLink k env).ops purge) st b a = .ok (pingNotes d a m ++ l, b') := by
  unfold scanAddress pingAddress at h
  rw [bind_eq_ok] at h
  obtain ⟨⟨ret, g, b1⟩, h1, h⟩ := h
  obtain ⟨m, h2, h3⟩ := pingD_sent d k env ho hw purge a ha _ _ _ _ _ _ _ h1
  refine ⟨m, ?_⟩
  unfold scanAddressD
  rw [h3, ok_bind]
  dsimp only at h ⊢
  obtain ⟨p, b2, h4, h5⟩ := purge_sent k env purge b1
  have h4 : ((busLink k env).ops purge).purge b1 = .ok (p, b2) := h4
  rw [h4] at h ⊢
  simp only [ok_bind] at h ⊢
  have e5 : b2.sent = b.sent ++ List.replicate m (pingWire (UInt8.ofNat a)) := by rw [h5, h2]
  by_cases c1 : ret = RECV_TIMEOUT
  · rw [if_pos c1] at h
    rw [if_pos c1]
    cases h; exact ⟨h2, by rw [List.append_nil]⟩
  rw [if_neg c1] at h
  rw [if_neg c1]
  by_cases c2 : ret = RECV_INVALID
  · rw [if_pos c2] at h
    rw [if_pos c2]
    cases h
    exact ⟨e5, rfl⟩
  rw [if_neg c2] at h
  rw [if_neg c2]
  by_cases c3 : g.type = TYPE_ACK
  · rw [if_pos c3] at h
    rw [if_pos c3]
    by_cases c4 : p ≠ 0
    · rw [if_pos c4] at h
      rw [if_pos c4]
      cases h
      exact ⟨e5, rfl⟩
    · rw [if_neg c4] at h
      rw [if_neg c4]
      cases h
      exact ⟨e5, rfl⟩
  · rw [if_neg c3] at h
    rw [if_neg c3]
    cases h; exact ⟨h2, by rw [List.append_nil]⟩

theorem scanFromD_wire (hp : purge ≠ PURGE_S2M) (st : Settings) (hst : 0 ≤ st.maxSearchRetry) (addrs : List Byte) (hf : FaithfulPing addrs env) (n : Nat) :
    ∀ (a : Nat) (sent : List (List Byte)), a + n ≤ 256 →
    scanFromD d ((busLink k env).ops purge) st n a ⟨[], sent⟩ =
      .ok ((List.range' a n).flatMap (fun a => pingNotes d a (if UInt8.ofNat a ∈ addrs then 1 else (st.maxSearchRetry + 1).toNat) ++ scanLine addrs a),
      ⟨[], sent ++ (List.range' a n).flatMap fun a =>
        List.replicate (if UInt8.ofNat a ∈ addrs then 1 else (st.maxSearchRetry + 1).toNat) (pingWire (UInt8.ofNat a))⟩) := by
  induction n with
  | zero => intro a sent _; simp [scanFromD]
  | succ n ih =>
    intro a sent hn
    unfold scanFromD
    have hw1 := scanAddress_wire k env ho hw purge hp st hst addrs hf a (by omega) sent
    obtain ⟨m, h1, h2⟩ := scanAddressD_sent d k env ho hw purge st a (by omega) _ _ _ hw1
    have hm : m = if UInt8.ofNat a ∈ addrs then 1 else (st.maxSearchRetry + 1).toNat := by
      have := congrArg List.length (List.append_cancel_left h1)
      simpa using this.symm
    rw [h2, ok_bind]
    dsimp only
    rw [ih (a + 1) _ (by omega), ok_bind, List.range'_succ, hm]
    simp only [List.flatMap_cons, List.append_assoc]

end

end Mbus
