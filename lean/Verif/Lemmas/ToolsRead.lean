import Verif.Lemmas.ToolsWire
import Verif.Props.Sendrecv
/-
Lemmas for the readout tools: from the telegram on the wire to the printed document.
-/
namespace Mbus
open Spec

theorem reads_carries (f : Frame) (c a : Byte) (p : List Byte) (hf : Carries f (.data c a 0x72 p)) (hd : c &&& 0x40 = 0) (h12 : 12 ≤ p.length)
    (hl : p.length ≤ 252) (h : VarHeader) (hh : HeaderIs h p) (rs : List Rec) (ht : Tiles (p.drop 12) rs) : Reads f h (rs.map mkRec) := by
  have hsz : f.dataSize = p.length := hf.2.2.2.2.1
  have hpay : payload f = p := hf.2.2.2.2.2
  refine ⟨by omega, ?_⟩
  obtain ⟨v, hv, hhe, hrs, _⟩ := variableParse_complete f FrameData.new.var (by omega) (by omega) rs (by rw [hpay]; exact ht)
  refine ⟨_, (C35_dispatch f FrameData.new (by rw [hf.2.1]; exact hd)).2.1 hf.2.2.2.1 (by omega) 0 v hv, rfl, ?_, hrs⟩
  rw [hpay] at hhe
  unfold HeaderIs at hh hhe
  rw [← hh] at hhe
  show v.header = h
  generalize v.header = g at hhe
  obtain ⟨⟨i1, l1⟩, ⟨m1, k1⟩, a1, b1, c1, d1, ⟨s1, n1⟩⟩ := g
  obtain ⟨⟨i2, l2⟩, ⟨m2, k2⟩, a2, b2, c2, d2, ⟨s2, n2⟩⟩ := h
  simp only [List.append_assoc] at hhe
  clear hh
  obtain ⟨e1, hhe⟩ := List.append_inj hhe (by omega)
  obtain ⟨e2, hhe⟩ := List.append_inj hhe (by omega)
  simp only [List.cons_append, List.nil_append, List.cons.injEq] at hhe
  obtain ⟨rfl, rfl, rfl, rfl, rfl⟩ := hhe
  subst e1 e2
  rfl

theorem charData_nonul {t : List Byte} (h : CharData t) : (0 : Byte) ∉ t := by
  induction h with
  | nil => simp
  | char _ _ h _ ih =>
    intro hm
    rcases List.mem_cons.mp hm with rfl | hm
    · revert h; decide
    · exact ih hm
  | entity he _ ih =>
    intro hm
    rcases List.mem_append.mp hm with hm | hm
    · simp only [List.mem_cons, List.not_mem_nil, or_false] at he
      rcases he with rfl | rfl | rfl | rfl <;> revert hm <;> decide
    · exact ih hm

theorem name_nonul {n : List Byte} (h : IsName n) : (0 : Byte) ∉ n := by
  intro hm
  have := h.2 0 hm
  revert this
  decide

theorem content_nonul {t : List Byte} (h : Content t) : (0 : Byte) ∉ t := by
  induction h with
  | text h => exact charData_nonul h
  | @elem name body attrs hn ha _ ih =>
    have h1 := name_nonul hn
    have h2 : (0 : Byte) ∉ attrs.flatMap attr := by
      intro hm
      obtain ⟨q, hq, hm⟩ := List.mem_flatMap.mp hm
      obtain ⟨a1, a2, _⟩ := ha q hq
      have b1 := name_nonul a1
      have b2 := charData_nonul a2
      unfold attr at hm
      simp [b1, b2] at hm
    simp only [List.mem_append, not_or]
    exact ⟨⟨⟨⟨⟨⟨⟨by decide, h1⟩, h2⟩, by decide⟩, ih⟩, by decide⟩, h1⟩, by decide⟩
  | append _ _ i1 i2 => simp [i1, i2]

theorem wellFormed_nonul {t : List Byte} (h : WellFormedXml t) : (0 : Byte) ∉ t := by
  obtain ⟨root, body, h1, h2, rfl⟩ := h
  have e1 := name_nonul h1
  have e2 := content_nonul h2
  simp only [List.mem_append, not_or]
  refine ⟨⟨⟨⟨⟨⟨?_, e1⟩, ?_⟩, e2⟩, ?_⟩, e1⟩, ?_⟩ <;> decide

/-- what `printf("%s")` prints of a buffer that starts with a document -/
theorem cstr_document {t m : List Byte} (hw : WellFormedXml t) (h : t ++ [0] <+: m) : cstr m = .ok t := by
  rw [cstr_prefix t m h]
  congr 1
  unfold upToNul
  have := wellFormed_nonul hw
  induction t with
  | nil => rfl
  | cons c t ih =>
    have hc : c ≠ 0 := fun e => this (by rw [e]; simp)
    have ht : (0 : Byte) ∉ t := fun e => this (by simp [e])
    rw [List.takeWhile_cons, if_pos (by simpa using hc)]
    congr 1
    clear ih h hw this
    induction t with
    | nil => rfl
    | cons d t ih =>
      have hd : d ≠ 0 := fun e => ht (by rw [e]; simp)
      rw [List.takeWhile_cons, if_pos (by simpa using hd), ih (fun e => ht (by simp [e]))]

/-! ### the same calls on a handle with another state -/

section
variable {σ τ : Type} (o : Ops σ) (o' : Ops τ) (φ : σ → τ)

/-- `o'` does on `φ s` what `o` does on `s` -/
structure Simulates : Prop where
  send : ∀ s f, o'.send (φ s) f = (o.send s f).map fun q => (q.1, q.2.1, φ q.2.2)
  recv : ∀ s f, o'.recv (φ s) f = (o.recv s f).map fun q => (q.1, q.2.1, φ q.2.2)
  purge : ∀ s, o'.purge (φ s) = (o.purge s).map fun q => (q.1, φ q.2)

def mapOut (r : SrOut σ) : SrOut τ := ⟨r.code, r.chain, r.recs, φ r.state⟩

theorem sendrecvLoop_sim (h : Simulates o o' φ) (maxRetry maxFrames : Int) (s : σ) (req : Frame) (done : List Frame) (cur : Frame)
    (x : FrameData) (p : RecPtr) (retry count : Int) :
    sendrecvLoop o' maxRetry maxFrames (φ s) req done cur x p retry count =
      (sendrecvLoop o maxRetry maxFrames s req done cur x p retry count).map (mapOut φ) := by
  fun_induction sendrecvLoop o maxRetry maxFrames s req done cur x p retry count
  all_goals
    rw [sendrecvLoop]
    first | rw [dif_pos (by assumption)] | rw [dif_neg (by assumption)]
    simp_all +zetaDelta [h.send, h.recv, h.purge, Except.map, mapOut]
    try grind

theorem sendrecv_sim (h : Simulates o o' φ) (st : Settings) (s : σ) (a : Int) (reply : Frame) (mf : Int) :
    sendrecvRequest o' st (φ s) a reply mf = (sendrecvRequest o st s a reply mf).map (mapOut φ) := by
  unfold sendrecvRequest
  split
  · rfl
  · exact sendrecvLoop_sim o o' φ h ..

end

def Bus.earlier (pre : List (List Byte)) (b : Bus) : Bus := ⟨b.script, pre ++ b.sent⟩

theorem link_send_after (k : Kind) (env : Env) (pre : List (List Byte)) (b : Bus) (f : Frame) :
    (busLink k env).send (b.earlier pre) f = ((busLink k (env.after pre)).send b f).map fun q => (q.1, q.2.1, q.2.2.earlier pre) := by
  show (sendFrame _ env.junk (env.wret (pre ++ b.sent)) f >>= _) = Except.map _ (sendFrame _ env.junk (env.wret (pre ++ b.sent)) f >>= _)
  show (sendFrame (match k with | .tcp => true | .serial => env.tty) env.junk (env.wret (pre ++ b.sent)) f >>= _) =
    Except.map _ (sendFrame (match k with | .tcp => true | .serial => env.tty) env.junk (env.wret (pre ++ b.sent)) f >>= _)
  cases sendFrame (match k with | .tcp => true | .serial => env.tty) env.junk (env.wret (pre ++ b.sent)) f with
  | error e => rfl
  | ok q =>
    obtain ⟨r, f', w⟩ := q
    cases w with
    | none => rfl
    | some bs =>
      simp only [ok_bind, Except.map, Bus.earlier, Env.after, List.append_assoc]

theorem link_recv_after (k : Kind) (env : Env) (pre : List (List Byte)) (b : Bus) (f : Frame) :
    (busLink k env).recv (b.earlier pre) f = ((busLink k (env.after pre)).recv b f).map fun q => (q.1, q.2.1, q.2.2.earlier pre) := by
  show (kindRecv k env.tty b.script f >>= _) = Except.map _ (kindRecv k env.tty b.script f >>= _)
  cases kindRecv k env.tty b.script f <;> rfl

theorem recvFrame_after (k : Kind) (env : Env) (pre : List (List Byte)) (purge : Int) (b : Bus) (f : Frame) :
    recvFrame (busLink k env) purge (b.earlier pre) f =
      (recvFrame (busLink k (env.after pre)) purge b f).map fun q => (q.1, q.2.1, q.2.2.earlier pre) := by
  unfold recvFrame
  rw [link_recv_after]
  cases (busLink k (env.after pre)).recv b f with
  | error e => rfl
  | ok q =>
    obtain ⟨r, f', b'⟩ := q
    simp only [Except.map, ok_bind]
    split
    · split
      · exact link_recv_after ..
      · rfl
    · split
      · split
        · exact link_recv_after ..
        · rfl
      · rfl

theorem purgeLoop_after (k : Kind) (env : Env) (pre : List (List Byte)) (purge : Int) (b : Bus) (f : Frame) (n : Int) :
    purgeLoop (busLink k env) purge (b.earlier pre) f n =
      (purgeLoop (busLink k (env.after pre)) purge b f n).map fun q => (q.1, q.2.earlier pre) := by
  fun_induction purgeLoop (busLink k (env.after pre)) purge b f n with
  | case1 b f n e h =>
    rw [purgeLoop]
    have h' := recvFrame_after k env pre purge b f
    rw [h] at h'
    split
    · next e' he => rw [h'] at he; cases he; rfl
    · next he => rw [h'] at he; cases he
  | case2 b f n err f' b' h hc =>
    rw [purgeLoop]
    have h' := recvFrame_after k env pre purge b f
    rw [h] at h'
    split
    · next e' he => rw [h'] at he; cases he
    · next he =>
      rw [h'] at he
      cases he
      rw [dif_pos hc]
      rfl
  | case3 b f n err f' b' h hc ih =>
    rw [purgeLoop]
    have h' := recvFrame_after k env pre purge b f
    rw [h] at h'
    split
    · next e' he => rw [h'] at he; cases he
    · next he =>
      rw [h'] at he
      cases he
      rw [dif_neg hc]
      exact ih

theorem bus_simulates (k : Kind) (env : Env) (pre : List (List Byte)) (purge : Int) :
    Simulates ((busLink k (env.after pre)).ops purge) ((busLink k env).ops purge) (Bus.earlier pre) :=
  ⟨link_send_after k env pre, recvFrame_after k env pre purge, fun b => purgeLoop_after k env pre purge b _ _⟩

end Mbus
