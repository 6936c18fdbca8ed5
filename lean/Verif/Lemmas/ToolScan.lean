import Verif.Model.Tools
import Verif.Lemmas.ToolsRead
import Verif.Lemmas.ScanRun
/- the output of a scan, from its log -/
namespace Mbus
open Spec

section
variable {σ τ : Type} {o : Ops σ} {o' : Ops τ} {φ : σ → τ}

theorem map_bind {α β γ : Type} (x : C α) (g : α → β) (k : β → C γ) : (x.map g >>= k) = (x >>= fun a => k (g a)) := by cases x <;> rfl

theorem bind_map {α β γ : Type} (x : C α) (k : α → C β) (g : β → γ) : (x >>= k).map g = (x >>= fun a => (k a).map g) := by cases x <;> rfl

theorem map_ok {α β : Type} (g : α → β) (a : α) : Except.map g (Except.ok a : C α) = .ok (g a) := rfl

theorem map_if {α β : Type} (c : Prop) [Decidable c] (g : α → β) (x y : C α) : (if c then x else y).map g = if c then x.map g else y.map g := by split <;> rfl

theorem bind_congr' {α β : Type} (x : C α) (f g : α → C β) (h : ∀ a, f a = g a) : (x >>= f) = (x >>= g) := by
  cases x with
  | error e => rfl
  | ok a => exact h a

/-- the state of a pair -/
def mapS (φ : σ → τ) {α : Type} (q : α × σ) : α × τ := (q.1, φ q.2)
def mapS3 (φ : σ → τ) {α β : Type} (q : α × β × σ) : α × β × τ := (q.1, q.2.1, φ q.2.2)

theorem sendRequest_sim (h : Simulates o o' φ) (s : σ) (a : Int) : sendRequest o' (φ s) a = (sendRequest o s a).map (mapS φ) := by
  unfold sendRequest
  rw [map_if]
  split
  · rfl
  · dsimp only
    rw [h.send, map_bind, bind_map]
    apply bind_congr'
    rintro ⟨r, f, s⟩
    simp only [map_if, map_ok, mapS]

theorem sendSelect_sim (h : Simulates o o' φ) (s : σ) (m : List Byte) : sendSelect o' (φ s) m = (sendSelect o s m).map (mapS φ) := by
  unfold sendSelect
  rw [bind_map]
  apply bind_congr'
  rintro ⟨r, f⟩
  simp only [map_if, map_ok]
  split
  · rfl
  · rw [h.send, map_bind, bind_map]
    apply bind_congr'
    rintro ⟨r, f, s⟩
    simp only [map_if, map_ok, mapS]

theorem selectSecondary_sim (h : Simulates o o' φ) (s : σ) (m : List Byte) : selectSecondary o' (φ s) m = (selectSecondary o s m).map (mapS φ) := by
  unfold selectSecondary
  rw [map_if]
  split
  · rfl
  · rw [sendSelect_sim h, map_bind, bind_map]
    apply bind_congr'
    rintro ⟨r, s⟩
    simp only [map_if, map_ok, mapS]
    split
    · rfl
    rw [h.recv, map_bind, bind_map]
    apply bind_congr'
    rintro ⟨r, f, s⟩
    simp only [map_if, map_ok]
    split
    · rfl
    split
    · rw [h.purge, map_bind, bind_map]
      rfl
    split
    · rw [h.purge, map_bind, bind_map]
      apply bind_congr'
      rintro ⟨p, s⟩
      simp only [map_if, map_ok, mapS]
    · rfl

/-- callbacks, too -/
structure SimulatesAll (o : Ops σ) (o' : Ops τ) (φ : σ → τ) : Prop extends Simulates o o' φ where
  progress : ∀ s m, o'.progress (φ s) m = φ (o.progress s m)
  found : ∀ s a f, o'.found (φ s) a f = φ (o.found s a f)

theorem probeSelected_sim (h : SimulatesAll o o' φ) (s : σ) : probeSelected o' (φ s) = (probeSelected o s).map (mapS3 φ) := by
  unfold probeSelected
  rw [sendRequest_sim h.toSimulates, map_bind, bind_map]
  apply bind_congr'
  rintro ⟨r, s⟩
  simp only [map_if, map_ok, mapS]
  split
  · rfl
  rw [h.recv, map_bind, bind_map]
  apply bind_congr'
  rintro ⟨r, f, s⟩
  simp only [map_if, map_ok]
  split
  · rfl
  split
  · rw [h.purge, map_bind, bind_map]
    rfl
  rw [h.purge, map_bind, bind_map]
  apply bind_congr'
  rintro ⟨p, s⟩
  simp only [map_if, map_ok]
  split
  · rfl
  split
  · rw [bind_map]
    apply bind_congr'
    intro a
    cases a with
    | none => rfl
    | some a => simp only [map_ok, mapS3, h.found]
  · rfl

theorem probeLoop_sim (h : SimulatesAll o o' φ) (m : List Byte) (n : Nat) : ∀ (s : σ) (ret : Int), probeLoop o' (φ s) m ret n = (probeLoop o s m ret n).map (mapS3 φ) := by
  induction n with
  | zero => intro s ret; rfl
  | succ n ih =>
    intro s ret
    unfold probeLoop
    rw [selectSecondary_sim h.toSimulates, map_bind, bind_map]
    apply bind_congr'
    rintro ⟨r, s⟩
    simp only [map_if, map_ok, mapS]
    rw [probeSelected_sim h, ih]
    rfl

theorem probe_sim (h : SimulatesAll o o' φ) (st : Settings) (s : σ) (m : List Byte) : probeSecondary o' st (φ s) m = (probeSecondary o st s m).map (mapS3 φ) := by
  unfold probeSecondary
  rw [map_if, probeLoop_sim h]
  rfl

theorem scanLoop_sim (h : SimulatesAll o o' φ) (st : Settings) (p : Nat) (sub : σ → List Byte → C (Int × σ)) (sub' : τ → List Byte → C (Int × τ))
    (hs : ∀ s m, sub' (φ s) m = (sub s m).map (mapS φ)) (ds : List Byte) : ∀ (m : List Byte) (s : σ),
    scanLoop o' st p sub' m ds (φ s) = (scanLoop o st p sub m ds s).map (mapS φ) := by
  induction ds with
  | nil => intro m s; rfl
  | cons d ds ih =>
    intro m s
    unfold scanLoop
    dsimp only
    rw [h.progress, probe_sim h, map_bind, bind_map]
    apply bind_congr'
    rintro ⟨r, a, s⟩
    simp only [map_if, map_ok, mapS3]
    rw [ih, hs, map_bind, bind_map]
    simp only [mapS, ih]
    rfl

theorem scanAt_sim (h : SimulatesAll o o' φ) (st : Settings) (n : Nat) : ∀ (s : σ) (m : List Byte), scanAt o' st n (φ s) m = (scanAt o st n s m).map (mapS φ) := by
  induction n with
  | zero => intro s m; rfl
  | succ n ih =>
    intro s m
    unfold scanAt
    dsimp only
    rw [bind_map]
    apply bind_congr'
    intro c
    simp only [map_if]
    rw [scanLoop_sim h st _ _ _ ih, scanLoop_sim h st _ _ _ ih, ih, map_bind, bind_map]
    rfl

theorem scan_sim (h : SimulatesAll o o' φ) (st : Settings) (s : σ) (pos : Int) (m : List Byte) : scanRange o' st (φ s) pos m = (scanRange o st s pos m).map (mapS φ) := by
  unfold scanRange
  rw [map_if, map_if, scanAt_sim h]
  rfl

end

/-- the mask being probed and the lines printed after a log -/
def printStep (q : List Byte × List Line) : Act → List Byte × List Line
  | .progress m => (m, q.2)
  | .found a _ => (q.1, q.2 ++ [.device a q.1])
  | _ => q

def printed (log : List Act) : List Byte × List Line := log.foldl printStep ([], [])

theorem printing_simulates {σ : Type} (o : Ops σ) : SimulatesAll o.logged o.printing fun q => (q.1, printed q.2) := by
  refine ⟨⟨?_, ?_, ?_⟩, ?_, ?_⟩
  · rintro ⟨s, l⟩ f
    rw [logged_send_eq]
    show (o.send s f >>= _) = _
    cases o.send s f with
    | error e => rfl
    | ok q => simp [Except.map, printed, printStep, ok_bind]
  · rintro ⟨s, l⟩ f
    rw [logged_recv_eq]
    show (o.recv s f >>= _) = _
    cases o.recv s f with
    | error e => rfl
    | ok q => simp [Except.map, printed, printStep, ok_bind]
  · rintro ⟨s, l⟩
    rw [logged_purge_eq]
    show (o.purge s >>= _) = _
    cases o.purge s with
    | error e => rfl
    | ok q => simp [Except.map, printed, printStep, ok_bind]
  · rintro ⟨s, l⟩ m
    simp [Ops.printing, Ops.logged, printed, printStep]
  · rintro ⟨s, l⟩ a f
    simp [Ops.printing, Ops.logged, printed, printStep]

end Mbus
