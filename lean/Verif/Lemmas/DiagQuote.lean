import Verif.Spec.Process
import Verif.Lemmas.Diag
/- Lemmas for Props/Process.lean: the lines of the session functions depend on `error_str` only in what they quote. -/
set_option linter.unusedSimpArgs false
namespace Mbus
open Spec

theorem rel_bind {A B A' B' V W : Type} {X : C A} {Y : C B} {f : A → V} {g : B → V} {F : A' → W} {G : B' → W} {k : A → C A'} {k' : B → C B'}
    (h : X.map f = Y.map g) (hk : ∀ a b, f a = g b → (k a).map F = (k' b).map G) : (X >>= k).map F = (Y >>= k').map G := by
  cases X with
  | error e =>
    cases Y with
    | error e' => cases h; rfl
    | ok b => cases h
  | ok a =>
    cases Y with
    | error e' => cases h
    | ok b => exact hk a b (by injection h)

theorem takeWhile_quote (p q q' : List Byte) (h : 58 ∈ p) : (p ++ q).takeWhile (· ≠ 58) = (p ++ q').takeWhile (· ≠ 58) := by
  induction p with
  | nil => cases h
  | cons c p ih =>
    by_cases hc : c = 58
    · simp [hc]
    · simp only [List.cons_append]
      rw [List.takeWhile_cons_of_pos (by simpa using hc), List.takeWhile_cons_of_pos (by simpa using hc), ih]
      simpa [Ne.symm hc] using h

section
variable {σ τ : Type} {d : Desk σ} {e : Desk τ} {φ : σ → τ}

def view (φ : σ → τ) {α : Type} (q : α × σ × List Note) : α × τ × List (List Byte × List Byte) := (q.1, φ q.2.1, q.2.2.map unquoted)
def view3 (φ : σ → τ) {α β : Type} (q : α × β × σ × List Note) : α × β × τ × List (List Byte × List Byte) := (q.1, q.2.1, φ q.2.2.1, q.2.2.2.map unquoted)

/-- a desk that does not look at, or keep, `error_str` -/
def Deaf (e : Desk τ) : Prop := ∀ s t, e.tell s t = s

theorem hear_deaf (b : Deaf e) (s : τ) (m : Said) : e.hear s m = s := by
  cases m with
  | none => rfl
  | some t => exact b s t

theorem sim_send (h : Simulates d.toOps e.toOps φ) (s : σ) (f : Frame) : (e.send (φ s) f).map id = (d.send s f).map fun q => (q.1, q.2.1, φ q.2.2) := by
  rw [h.send]; cases d.send s f <;> rfl
theorem sim_recv (h : Simulates d.toOps e.toOps φ) (s : σ) (f : Frame) : (e.recv (φ s) f).map id = (d.recv s f).map fun q => (q.1, q.2.1, φ q.2.2) := by
  rw [h.recv]; cases d.recv s f <;> rfl
theorem sim_purge (h : Simulates d.toOps e.toOps φ) (s : σ) : (e.purge (φ s)).map id = (d.purge s).map fun q => (q.1, φ q.2) := by
  rw [h.purge]; cases d.purge s <;> rfl

theorem finishD_view (h : Simulates d.toOps e.toOps φ) (fn : List Byte) (s : σ) (f : Frame) :
    (finishD e fn (φ s) f).map (view id) = (finishD d fn s f).map (view φ) := by
  unfold finishD
  refine rel_bind (sim_send h s f) ?_
  rintro _ ⟨r, f, s⟩ rfl
  simp only [map_if, map_ok, view, id]

theorem sendRequestD_view (h : Simulates d.toOps e.toOps φ) (s : σ) (a : Int) : (sendRequestD e (φ s) a).map (view id) = (sendRequestD d s a).map (view φ) := by
  unfold sendRequestD
  rw [map_if, map_if]
  exact ite_both rfl (finishD_view h _ s _)

theorem sendPingD_view (h : Simulates d.toOps e.toOps φ) (s : σ) (a : Int) (p : Bool) :
    (sendPingD e (φ s) a p).map (view id) = (sendPingD d s a p).map (view φ) := by
  unfold sendPingD
  rw [map_if, map_if]
  refine ite_both rfl ?_
  refine rel_bind (sim_send h s _) ?_
  rintro _ ⟨r, f, s⟩ rfl
  simp only [map_if, map_ok, id]
  refine ite_both rfl (ite_both ?_ rfl)
  refine rel_bind (sim_purge h s) ?_
  rintro _ ⟨r, s⟩ rfl
  rfl

theorem sendBaudD_view (h : Simulates d.toOps e.toOps φ) (s : σ) (a b : Int) :
    (sendBaudD e (φ s) a b).map (view id) = (sendBaudD d s a b).map (view φ) := by
  unfold sendBaudD
  rw [map_if, map_if]
  refine ite_both rfl ?_
  cases baudCode b with
  | none => rfl
  | some ci => exact finishD_view h _ s _

theorem sendAppResetD_view (h : Simulates d.toOps e.toOps φ) (s : σ) (a b : Int) :
    (sendAppResetD e (φ s) a b).map (view id) = (sendAppResetD d s a b).map (view φ) := by
  unfold sendAppResetD
  simp only [map_if]
  refine ite_both rfl (ite_both rfl ?_)
  split
  · refine rel_bind (f := id) (g := id) rfl ?_
    rintro f _ rfl
    exact finishD_view h _ s _
  · exact finishD_view h _ s _

theorem sendUserDataD_view (h : Simulates d.toOps e.toOps φ) (s : σ) (a : Int) (x : List Byte) (n : Nat) :
    (sendUserDataD e (φ s) a x n).map (view id) = (sendUserDataD d s a x n).map (view φ) := by
  unfold sendUserDataD
  simp only [map_if]
  refine ite_both rfl (ite_both rfl ?_)
  refine rel_bind (f := id) (g := id) rfl ?_
  rintro f _ rfl
  exact finishD_view h _ s _

theorem setPrimaryAddressD_view (h : Simulates d.toOps e.toOps φ) (s : σ) (a b : Int) :
    (setPrimaryAddressD e (φ s) a b).map (view id) = (setPrimaryAddressD d s a b).map (view φ) := by
  unfold setPrimaryAddressD
  simp only [map_if]
  exact ite_both rfl (ite_both rfl (sendUserDataD_view h s a _ 3))

theorem sendSelectD_view (h : Simulates d.toOps e.toOps φ) (b : Blind d φ) (b' : Deaf e) (s : σ) (m : List Byte) :
    (sendSelectD e (φ s) m).map (view id) = (sendSelectD d s m).map (view φ) := by
  unfold sendSelectD
  refine rel_bind (f := id) (g := id) rfl ?_
  rintro ⟨r, f, t⟩ _ rfl
  simp only [map_if, map_ok, id, view, hear_blind b, hear_deaf b']
  refine ite_both rfl ?_
  have := sim_send h (d.hear s t) f
  rw [hear_blind b] at this
  refine rel_bind this ?_
  rintro _ ⟨r, f, s⟩ rfl
  simp only [map_if, map_ok, view, id]

theorem unquoted_eq {a : List Byte} (x p q q' r r' : List Byte) (hx : x = p ++ q ++ r) (y : List Byte) (hy : y = p ++ q' ++ r') (h : 58 ∈ p) :
    unquoted ⟨a, x⟩ = unquoted ⟨a, y⟩ := by
  subst hx hy
  simp only [unquoted, List.append_assoc]
  rw [takeWhile_quote p _ _ h]

theorem selectSecondaryD_view (h : Simulates d.toOps e.toOps φ) (b : Blind d φ) (b' : Deaf e) (s : σ) (m : List Byte) :
    (selectSecondaryD e (φ s) m).map (view id) = (selectSecondaryD d s m).map (view φ) := by
  unfold selectSecondaryD
  simp only [map_if]
  refine ite_both rfl ?_
  refine rel_bind (sendSelectD_view h b b' s m) ?_
  rintro ⟨r, s', ls'⟩ ⟨r1, s, ls⟩ hh
  simp only [view, id, Prod.mk.injEq] at hh
  obtain ⟨rfl, rfl, hl⟩ := hh
  simp only [map_if]
  refine ite_both ?_ ?_
  · simp only [map_ok, view, id, List.map_append, List.map_cons, List.map_nil, hl]
    rw [unquoted_eq _ (cs! "Failed to send selection frame: ") _ (d.quote s) _ _ rfl _ rfl (by decide)]
  refine rel_bind (sim_recv h s _) ?_
  rintro _ ⟨r, f, s⟩ rfl
  simp only [map_if, id]
  refine ite_both ?_ (ite_both ?_ (ite_both ?_ ?_))
  · simp only [map_ok, view, id, hl]
  · refine rel_bind (sim_purge h s) ?_
    rintro _ ⟨r, s⟩ rfl
    simp only [map_ok, view, id, hl]
  · refine rel_bind (sim_purge h s) ?_
    rintro _ ⟨r, s⟩ rfl
    simp only [map_if, map_ok, view, id, hl]
  · simp only [map_ok, view, id, List.map_append, hl]

theorem probeSelectedD_view (h : SimulatesAll d.toOps e.toOps φ) (b : Blind d φ) (b' : Deaf e) (s : σ) (m : List Byte) :
    (probeSelectedD e (φ s) m).map (view3 id) = (probeSelectedD d s m).map (view3 φ) := by
  unfold probeSelectedD
  refine rel_bind (sendRequestD_view h.toSimulates s _) ?_
  rintro ⟨r, s', ls'⟩ ⟨r1, s, ls⟩ hh
  simp only [view, id, Prod.mk.injEq] at hh
  obtain ⟨rfl, rfl, hl⟩ := hh
  simp only [map_if]
  refine ite_both ?_ ?_
  · simp only [map_ok, view3, id, List.map_append, List.map_cons, List.map_nil, hl]
    rw [unquoted_eq _ (cs! "Failed to send request to selected secondary device [mask " ++ m ++ cs! "]: ") _ (d.quote s) _ _ rfl _ rfl
      (List.mem_append_right _ (by decide))]
  refine rel_bind (sim_recv h.toSimulates s _) ?_
  rintro _ ⟨r, f, s⟩ rfl
  simp only [map_if, id]
  refine ite_both ?_ (ite_both ?_ ?_)
  · simp only [map_ok, view3, id, hl]
  · refine rel_bind (sim_purge h.toSimulates s) ?_
    rintro _ ⟨r, s⟩ rfl
    simp only [map_ok, view3, id, hl]
  · refine rel_bind (sim_purge h.toSimulates s) ?_
    rintro _ ⟨r, s⟩ rfl
    simp only [map_if, id]
    refine ite_both ?_ (ite_both ?_ ?_)
    · simp only [map_ok, view3, id, hl]
    · refine rel_bind (f := id) (g := id) rfl ?_
      rintro ⟨a, t⟩ _ rfl
      cases a with
      | none =>
        simp only [map_ok, view3, id, List.map_append, List.map_cons, List.map_nil, hl, hear_blind b, hear_deaf b']
        rw [unquoted_eq _ (cs! "Failed to generate secondary address from M-Bus reply frame: ") (e.quote (φ s)) (d.quote (d.hear s t)) [] []
          (by simp only [List.append_nil]) _ (by simp only [List.append_nil]; rfl) (by decide)]
      | some a => simp only [map_ok, view3, id, hl, ← h.found, hear_blind b, hear_deaf b']
    · simp only [map_ok, view3, id, List.map_append, hl]

theorem probeLoopD_view (h : SimulatesAll d.toOps e.toOps φ) (b : Blind d φ) (b' : Deaf e) (m : List Byte) (n : Nat) : ∀ (s : σ) (ret : Int),
    (probeLoopD e m ret n (φ s)).map (view3 id) = (probeLoopD d m ret n s).map (view3 φ) := by
  induction n with
  | zero => intro s ret; rfl
  | succ n ih =>
    intro s ret
    unfold probeLoopD
    refine rel_bind (selectSecondaryD_view h.toSimulates b b' s m) ?_
    rintro ⟨r, s', ls'⟩ ⟨r1, s, ls⟩ hh
    simp only [view, id, Prod.mk.injEq] at hh
    obtain ⟨rfl, rfl, hl⟩ := hh
    simp only [map_if]
    have last : ∀ {X : C (Int × Option (List Byte) × τ × List Note)} {Y : C (Int × Option (List Byte) × σ × List Note)},
        X.map (view3 id) = Y.map (view3 φ) →
        Except.map (view3 id) (do let (r, a, s, ms) ← X; .ok (r, a, s, ls' ++ ms)) = Except.map (view3 φ) (do let (r, a, s, ms) ← Y; .ok (r, a, s, ls ++ ms)) := by
      intro X Y hXY
      refine rel_bind hXY ?_
      rintro ⟨r, a, s', ms'⟩ ⟨r1, a1, s, ms⟩ hh
      simp only [view3, id, Prod.mk.injEq] at hh
      obtain ⟨rfl, rfl, rfl, hm⟩ := hh
      simp only [map_ok, view3, id, List.map_append, hl, hm]
    refine ite_both (last (probeSelectedD_view h b b' s m)) (ite_both ?_ (last (ih s r)))
    simp only [map_ok, view3, id, hl]

theorem probeSecondaryD_view (h : SimulatesAll d.toOps e.toOps φ) (b : Blind d φ) (b' : Deaf e) (st : Settings) (s : σ) (m : List Byte) :
    (probeSecondaryD e st (φ s) m).map (view3 id) = (probeSecondaryD d st s m).map (view3 φ) := by
  unfold probeSecondaryD
  simp only [map_if]
  exact ite_both rfl (probeLoopD_view h b b' m _ s 0)

theorem scanLoopD_view (h : SimulatesAll d.toOps e.toOps φ) (b : Blind d φ) (b' : Deaf e) (st : Settings) (p : Nat)
    (sub : σ → List Byte → C (Int × σ × List Note)) (sub' : τ → List Byte → C (Int × τ × List Note))
    (hs : ∀ s m, (sub' (φ s) m).map (view id) = (sub s m).map (view φ)) (ds : List Byte) : ∀ (m : List Byte) (s : σ),
    (scanLoopD e st p sub' m ds (φ s)).map (view id) = (scanLoopD d st p sub m ds s).map (view φ) := by
  induction ds with
  | nil => intro m s; rfl
  | cons x ds ih =>
    intro m s
    unfold scanLoopD
    dsimp only
    rw [h.progress]
    refine rel_bind (probeSecondaryD_view h b b' st _ _) ?_
    rintro ⟨r, a, s', ls'⟩ ⟨r1, a1, s, ls⟩ hh
    simp only [view3, id, Prod.mk.injEq] at hh
    obtain ⟨rfl, rfl, rfl, hl⟩ := hh
    simp only [map_if]
    have last : ∀ (s : σ) (ls' ls : List Note), ls'.map unquoted = ls.map unquoted →
        Except.map (view id) (do let (c, s, ns) ← scanLoopD e st p sub' (m.set p x) ds (φ s); .ok (c, s, ls' ++ ns)) =
        Except.map (view φ) (do let (c, s, ns) ← scanLoopD d st p sub (m.set p x) ds s; .ok (c, s, ls ++ ns)) := by
      intro s ls' ls hl
      refine rel_bind (ih _ s) ?_
      rintro ⟨r, s', ms'⟩ ⟨r1, s, ms⟩ hh
      simp only [view, id, Prod.mk.injEq] at hh
      obtain ⟨rfl, rfl, hm⟩ := hh
      simp only [map_ok, view, id, List.map_append, hl, hm]
    refine ite_both (last s _ _ hl) (ite_both ?_ (ite_both (last s _ _ hl) ?_))
    · refine rel_bind (hs s _) ?_
      rintro ⟨r, s', ms'⟩ ⟨r1, s, ms⟩ hh
      simp only [view, id, Prod.mk.injEq] at hh
      obtain ⟨rfl, rfl, hm⟩ := hh
      exact last s _ _ (by rw [List.map_append, List.map_append, hl, hm])
    · simp only [map_ok, view, id, List.map_append, hl]

theorem scanAtD_view (h : SimulatesAll d.toOps e.toOps φ) (b : Blind d φ) (b' : Deaf e) (st : Settings) (n : Nat) : ∀ (s : σ) (m : List Byte),
    (scanAtD e st n (φ s) m).map (view id) = (scanAtD d st n s m).map (view φ) := by
  induction n with
  | zero => intro s m; rfl
  | succ n ih =>
    intro s m
    unfold scanAtD
    refine rel_bind (f := id) (g := id) rfl ?_
    rintro c _ rfl
    simp only [map_if, id]
    refine ite_both (scanLoopD_view h b b' st _ _ _ ih _ _ _) (ite_both ?_ (scanLoopD_view h b b' st _ _ _ ih _ _ _))
    refine rel_bind (ih s m) ?_
    rintro ⟨r, s', ms'⟩ ⟨r1, s, ms⟩ hh
    simp only [view, id, Prod.mk.injEq] at hh
    obtain ⟨rfl, rfl, hm⟩ := hh
    simp only [map_ok, view, id, hm]

theorem scanRangeD_view (h : SimulatesAll d.toOps e.toOps φ) (b : Blind d φ) (b' : Deaf e) (st : Settings) (s : σ) (pos : Int) (m : List Byte) :
    (scanRangeD e st (φ s) pos m).map (view id) = (scanRangeD d st s pos m).map (view φ) := by
  unfold scanRangeD
  simp only [map_if]
  exact ite_both rfl (ite_both rfl (scanAtD_view h b b' st _ s m))

theorem askD_view (h : Simulates d.toOps e.toOps φ) (s : σ) (a : Int) : (askD e (φ s) a).map (view id) = (askD d s a).map (view φ) := by
  unfold askD
  refine rel_bind (sendRequestD_view h s a) ?_
  rintro ⟨r, s', ls'⟩ ⟨r1, s, ls⟩ hh
  simp only [view, id, Prod.mk.injEq] at hh
  obtain ⟨rfl, rfl, hl⟩ := hh
  simp only [map_if, map_ok, view, id, List.map_append, hl]

theorem approachD_view (h : Simulates d.toOps e.toOps φ) (b : Blind d φ) (b' : Deaf e) (s : σ) (a : Address) :
    (approachD e (φ s) a).map (view id) = (approachD d s a).map (view φ) := by
  cases a with
  | primary a => exact askD_view h s a
  | secondary t =>
    unfold approachD
    refine rel_bind (selectSecondaryD_view h b b' s t) ?_
    rintro ⟨r, s', ls'⟩ ⟨r1, s, ls⟩ hh
    simp only [view, id, Prod.mk.injEq] at hh
    obtain ⟨rfl, rfl, hl⟩ := hh
    simp only [map_if, map_ok, view, id, List.map_append, hl]
    refine ite_both rfl (ite_both rfl (ite_both rfl ?_))
    refine rel_bind (askD_view h s _) ?_
    rintro ⟨r, s', ms'⟩ ⟨r1, s, ms⟩ hh
    simp only [view, id, Prod.mk.injEq] at hh
    obtain ⟨rfl, rfl, hm⟩ := hh
    simp only [map_ok, view, id, List.map_append, hl, hm]

theorem readSlaveD_view (h : Simulates d.toOps e.toOps φ) (b : Blind d φ) (b' : Deaf e) (s : σ) (a : Address) (f : Frame) :
    (readSlaveD e (φ s) a f).map (view3 id) = (readSlaveD d s a f).map (view3 φ) := by
  unfold readSlaveD
  refine rel_bind (approachD_view h b b' s a) ?_
  rintro ⟨r, s', ls'⟩ ⟨r1, s, ls⟩ hh
  simp only [view, id, Prod.mk.injEq] at hh
  obtain ⟨rfl, rfl, hl⟩ := hh
  simp only [map_if]
  refine ite_both ?_ ?_
  · simp only [map_ok, view3, id, hl]
  refine rel_bind (sim_recv h s f) ?_
  rintro _ ⟨r, f, s⟩ rfl
  simp only [map_if, map_ok, view3, id, List.map_append, hl]

theorem sendrecvLoopD_view (h : Simulates d.toOps e.toOps φ) (b : Blind d φ) (b' : Deaf e) (maxRetry maxFrames : Int) (s : σ) (req : Frame) (done : List Frame)
    (cur : Frame) (x : FrameData) (p : RecPtr) (retry count : Int) (ls : List Note) :
    sendrecvLoopD e maxRetry maxFrames (φ s) req done cur x p retry count ls =
      (sendrecvLoopD d maxRetry maxFrames s req done cur x p retry count ls).map fun q => (mapOut φ q.1, q.2) := by
  fun_induction sendrecvLoopD d maxRetry maxFrames s req done cur x p retry count ls
  all_goals
    rw [sendrecvLoopD]
    first | rw [dif_pos (by assumption)] | rw [dif_neg (by assumption)]
    simp_all +zetaDelta [h.send, h.recv, h.purge, Except.map, mapOut, hear_blind b, hear_deaf b']
    try grind

theorem sendrecvRequestD_view (h : Simulates d.toOps e.toOps φ) (b : Blind d φ) (b' : Deaf e) (st : Settings) (s : σ) (a : Int) (reply : Frame) (mf : Int) :
    sendrecvRequestD e st (φ s) a reply mf = (sendrecvRequestD d st s a reply mf).map fun q => (mapOut φ q.1, q.2) := by
  unfold sendrecvRequestD
  rw [map_if]
  exact ite_both rfl (sendrecvLoopD_view h b b' _ _ _ _ _ _ _ _ _ _ _)

end

end Mbus
