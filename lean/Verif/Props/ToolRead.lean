import Verif.Lemmas.ToolsRead
import Verif.Props.Xml
import Verif.Props.Sendrecv
import Verif.Props.Tools
/-
Property theorems C91, C92: the readout tools.
-/
namespace Mbus
open Spec

/-! ### C91 -/

theorem readout_no_user {addr : List Byte} {f : Frame} (h : ReadoutFrame addr f) : ¬ UserData f := by
  have hs : ∀ c a, Carries f (.short c a) → ¬ UserData f := by
    rintro c a h1 ⟨d, b, q, hq⟩
    have h2 := hq.1
    rw [h1.1] at h2
    split at h2 <;> exact absurd h2 (by decide)
  cases h with
  | reset h => exact hs _ _ h
  | select _ h =>
    obtain ⟨p, _, h1, _⟩ := h
    rintro ⟨c, a, q, hq⟩
    exact absurd (h1.2.2.2.1.symm.trans hq.2.2.2.1) (by decide)
  | request c d _ _ _ h => exact hs _ _ h

theorem selection_readout {addr : List Byte} {r : Int} {l : List Act} (h : Selection addr r l) : ∀ f c, Act.sent f c ∈ l → ReadoutFrame addr f := by
  intro f c hm
  cases h <;> simp at hm <;> (obtain ⟨rfl, rfl⟩ := hm; exact .select ‹_› ‹_›)

theorem reached_dest {addr : List Byte} {dest : Int} {l : List Act} (h : Reached addr dest l) :
    AddressMask addr ∧ dest = 0xFD ∨ ¬ AddressMask addr ∧ dest = atoi addr := by
  cases h with
  | secondary _ h1 h2 => exact .inl ⟨h1, rfl⟩
  | primary h1 => exact .inr ⟨h1, rfl⟩

/-- the log of resetting and reaching the meter -/
theorem reached_log {σ : Type} (o : Ops σ) (s : σ) (log : List Act) (addr : List Byte) (a : Option Int) (s' : σ × List Act)
    (h : reach o.logged (s, log) addr = .ok (a, s')) :
    ∃ l, s'.2 = log ++ l ∧ (∀ f c, Act.sent f c ∈ l → ReadoutFrame addr f) ∧ ∀ dest, a = some dest → Reached addr dest l := by
  rcases reach_log o s log addr a s' h with ⟨hm, l, r, e, hs, ha⟩ | ⟨hm, ha, hs⟩
  · refine ⟨l, e, selection_readout hs, ?_⟩
    intro dest hd
    by_cases hr : r = 1
    · subst hr
      rw [ha, if_pos rfl] at hd
      cases hd
      exact .secondary l hm hs
    · rw [ha, if_neg hr] at hd; cases hd
  · refine ⟨[], by rw [hs]; simp, by simp, ?_⟩
    intro dest hd
    rw [ha] at hd
    cases hd
    exact .primary hm

/-- C91: whatever the handle does, a readout sends nothing but resets, the selection of the meter the user named and
requests to it; it either fails silently with status 1, or it
has reached the meter the user named, sent one request for data to it, received one telegram without error, and prints the XML
text of exactly that telegram. -/
theorem C91_request {σ : Type} (init : Bool) (junk0 : Nat → Byte) (junk : Nat → Nat → Byte) (stamp : Option (List Byte)) (o : Ops σ) (s : σ) (addr : List Byte)
    (e : Exit (σ × List Act)) (h : requestTool init junk0 junk stamp o.logged (s, []) addr = .ok e) :
    (∀ f c, Act.sent f c ∈ e.state.2 → ReadoutFrame addr f) ∧
    ((e.code = 1 ∧ e.out = []) ∨
     ∃ resets sel req c reply dest text x m, e.code = 0 ∧ e.out = [.xml text] ∧
      e.state.2 = resets ++ sel ++ [.sent req c, .received RECV_OK reply] ∧ OnlyResets resets ∧ (init = false → resets = []) ∧
      Reached addr dest sel ∧ 0 ≤ dest ∧ dest ≤ 255 ∧ Carries req (.short 0x5B (UInt8.ofNat dest.toNat)) ∧ c ≠ -1 ∧
      frameDataParse reply FrameData.new = .ok (0, x) ∧ frameDataXml junk0 junk x (x.var.records.map fun _ => stamp) = .ok (some m) ∧ cstr m = .ok text) := by
  unfold requestTool at h
  rw [bind_eq_ok] at h
  obtain ⟨⟨ok, s1, log1⟩, h1, h⟩ := h
  have r1 : OnlyResets log1 ∧ (init = false → log1 = []) := by
    cases init with
    | false => cases h1; exact ⟨(by intro f c hm; cases hm), fun _ => rfl⟩
    | true =>
      obtain ⟨l, e1, r⟩ := init_log o s [] ok _ h1
      simp only [List.nil_append] at e1
      subst e1
      exact ⟨r, fun h => (by cases h)⟩
  have n1 : ∀ f c, Act.sent f c ∈ log1 → ReadoutFrame addr f := fun f c hm => .reset (r1.1 f c hm)
  simp only at h
  by_cases hok : ok = false
  · rw [if_pos hok] at h; cases h; exact ⟨n1, .inl ⟨rfl, rfl⟩⟩
  rw [if_neg hok, bind_eq_ok] at h
  obtain ⟨⟨a, s2, log2⟩, h2, h⟩ := h
  obtain ⟨l, e2, n2, hreach⟩ := reached_log o s1 log1 addr a _ h2
  simp only at e2 h
  subst e2
  have n12 : ∀ f c, Act.sent f c ∈ log1 ++ l → ReadoutFrame addr f := by
    intro f c hm
    rcases List.mem_append.mp hm with hm | hm
    · exact n1 f c hm
    · exact n2 f c hm
  cases a with
  | none => simp only at h; cases h; exact ⟨n12, .inl ⟨rfl, rfl⟩⟩
  | some dest =>
    simp only at h
    have hre := hreach dest rfl
    unfold requestFrom at h
    rw [bind_eq_ok] at h
    obtain ⟨⟨r, s3, log3⟩, h3, h⟩ := h
    simp only at h
    rcases request_log o s2 _ dest r _ h3 with ⟨_, rfl, hs⟩ | ⟨hd, req, c, hreq, e3, hr⟩
    · rw [if_pos rfl] at h
      cases h
      cases hs
      exact ⟨n12, .inl ⟨rfl, rfl⟩⟩
    simp only at e3
    subst e3
    have n3 : ∀ f d, Act.sent f d ∈ log1 ++ l ++ [.sent req c] → ReadoutFrame addr f := by
      intro f d hm
      rcases List.mem_append.mp hm with hm | hm
      · exact n12 f d hm
      · have := List.mem_singleton.mp hm
        cases this
        exact .request 0x5B dest (.inl rfl) (reached_dest hre) hd hreq
    rcases hr with ⟨rfl, rfl⟩ | ⟨hc, rfl⟩
    · rw [if_pos rfl] at h; cases h; exact ⟨n3, .inl ⟨rfl, rfl⟩⟩
    rw [if_neg (by decide), logged_recv_eq] at h
    cases hq : o.recv s3 Frame.zero with
    | error e => rw [hq] at h; cases h
    | ok q =>
      obtain ⟨rc, reply, s4⟩ := q
      rw [hq] at h
      simp only [ok_bind] at h
      have n4 : ∀ f d, Act.sent f d ∈ log1 ++ l ++ [.sent req c] ++ [.received rc reply] → ReadoutFrame addr f := by
        intro f d hm
        rcases List.mem_append.mp hm with hm | hm
        · exact n3 f d hm
        · have := List.mem_singleton.mp hm; cases this
      by_cases hrc : rc ≠ RECV_OK
      · rw [if_pos hrc] at h; cases h; exact ⟨n4, .inl ⟨rfl, rfl⟩⟩
      rw [if_neg hrc, bind_eq_ok] at h
      have hrc : rc = RECV_OK := Decidable.byContradiction hrc
      subst hrc
      obtain ⟨⟨pr, x⟩, h5, h⟩ := h
      simp only at h
      by_cases hpr : pr = -1
      · rw [if_pos hpr] at h; cases h; exact ⟨n4, .inl ⟨rfl, rfl⟩⟩
      rw [if_neg hpr, bind_eq_ok] at h
      have hpr : pr = 0 := (frameDataParse_code _ _ _ _ h5).resolve_right hpr
      subst hpr
      obtain ⟨m, h6, h⟩ := h
      cases m with
      | none => simp only at h; cases h; exact ⟨n4, .inl ⟨rfl, rfl⟩⟩
      | some m =>
        simp only at h
        rw [bind_eq_ok] at h
        obtain ⟨t, h7, h⟩ := h
        cases h
        exact ⟨n4, .inr ⟨log1, l, req, c, reply, dest, t, x, m, rfl, rfl, by simp, r1.1, r1.2, hre, hd.1, hd.2, hreq, hc, h5, h6, h7⟩⟩

/-- C91 on the wire, with the restrictions of C56: on a bus where the meter can be reached and answers the request with a variable
data telegram (in chunks of any size), the complete document for its header and its records is printed, and nothing was
transmitted but the resets, the selection and one request. -/
theorem C91_wire_partial (init : Bool) (junk0 : Nat → Byte) (junk : Nat → Nat → Byte) (stamp : Option (List Byte)) (hst : StampOk stamp)
    (hcd : ∀ t, stamp = some t → CharData t) (k : Kind) (env : Env) (ho : IsOpen k env) (hw : Writable env) (purge : Int) (hp : purge ≠ PURGE_S2M)
    (before ready after : List (List Byte)) (addr : List Byte) (dest : Byte)
    (hi : if init then Resettable env before ready else ready = before) (hreach : Reachable env addr ready dest after)
    (c a : Byte) (p : List Byte) (hl : Spec.Telegram.Legal (.data c a 0x72 p)) (hdir : c &&& 0x40 = 0) (h12 : 12 ≤ p.length)
    (cs : List (List Byte)) (hcs : Chunks cs) (hw2 : cs.flatten = (Spec.Telegram.data c a 0x72 p).wire)
    (hr : env.respond (after ++ [(Spec.Telegram.short 0x5B dest).wire]) = evs cs)
    (h : VarHeader) (hh : HeaderIs h p) (rs : List Rec) (ht : Tiles (p.drop 12) rs) (units : List (List Byte)) (hu : units.length = rs.length)
    (hs : ∀ it ∈ (rs.map mkRec).zip (units.map (·, stamp)), Showable it) :
    ∃ name, productName h = .ok name ∧
    requestTool init junk0 junk stamp ((busLink k env).ops purge) ⟨[], before⟩ addr = .ok ⟨0,
      [.xml (document (slaveGroup h name (mediumLookup h.medium) :: recordGroups none 0 ((rs.map mkRec).zip (units.map (·, stamp)))))],
      ⟨[], after ++ [(Spec.Telegram.short 0x5B dest).wire]⟩⟩ := by
  obtain ⟨g, hrecv, hg⟩ := recv_telegram k env ho purge hp (after ++ [(Spec.Telegram.short 0x5B dest).wire]) cs hcs _ hl hdir hw2 Frame.zero
  have hp252 : p.length ≤ 252 := hl.2
  have hread := reads_carries g c a p hg hdir h12 hp252 h hh rs ht
  have hread0 := hread
  obtain ⟨_, x, hx, hty, hhd, hrs⟩ := hread
  generalize hits : (rs.map mkRec).zip (units.map (·, stamp)) = its at hs ⊢
  have hi1 : its.map (·.1) = rs.map mkRec := by rw [← hits, List.map_fst_zip (by simp [hu])]
  have hi2 : ∀ it ∈ its, it.2.2 = stamp := by
    intro it hit
    rw [← hits] at hit
    have := (List.of_mem_zip hit).2
    obtain ⟨u, _, e⟩ := List.mem_map.mp this
    rw [← e]
  have hlen : its.length < 2 ^ 31 := by
    have e1 := congrArg List.length hi1
    simp only [List.length_map] at e1
    have e2 := tiles_count ht
    simp only [List.length_drop] at e2
    omega
  obtain ⟨m, name, h1, h2, h3⟩ := C56_variable_partial junk0 junk h its (fun it hit => ⟨hread0.delivered _ (by rw [← hi1]; exact List.mem_map_of_mem hit), hs it hit,
    by rw [hi2 it hit]; exact hst⟩) hlen
  refine ⟨name, h2, ?_⟩
  have hwf : WellFormedXml (document (slaveGroup h name (mediumLookup h.medium) :: recordGroups none 0 its)) := by
    apply document_wellFormed
    intro gr hgr
    rcases List.mem_cons.mp hgr with rfl | hgr
    · exact slaveGroup_ok _ _ _
    · exact recordGroups_ok _ _ (by intro it hit t he; rw [hi2 it hit] at he; exact hcd t he) _ gr hgr
  unfold requestTool
  have hinit : maybeInit init ((busLink k env).ops purge) ⟨[], before⟩ = .ok (true, ⟨[], ready⟩) := by
    cases init with
    | false => simp only [Bool.false_eq_true, if_false] at hi; rw [hi]; rfl
    | true => exact init_wire k env ho hw purge before ready hi
  rw [hinit, ok_bind]
  simp only
  rw [if_neg (by decide), reach_wire k env ho hw purge hp addr ready dest after hreach, ok_bind]
  simp only
  unfold requestFrom
  rw [bus_sendRequest k env ho hw purge after dest.toNat (by have := dest.toNat_lt; omega), ok_bind]
  simp only [Int.toNat_natCast, UInt8.ofNat_toNat]
  rw [if_neg (by decide), hr]
  show (recvFrame (busLink k env) purge ⟨evs cs, _⟩ Frame.zero >>= _) = _
  rw [hrecv, ok_bind]
  simp only
  rw [if_neg (fun h => h rfl), hx, ok_bind]
  simp only
  rw [if_neg (by decide)]
  have hxml : frameDataXml junk0 junk x (x.var.records.map fun _ => stamp) = .ok (some m) := by
    unfold frameDataXml
    rw [hty, if_neg (by decide), if_neg (by decide), if_pos rfl, hhd, hrs]
    have hz : (rs.map mkRec).zip ((rs.map mkRec).map fun _ => stamp) = its.map fun it => (it.1, it.2.2) := by
      have hz0 : ∀ l : List Record, l.zip (l.map fun _ => stamp) = l.map (·, stamp) := by
        intro l
        induction l with
        | nil => rfl
        | cons r l ih => simp [ih]
      rw [← hi1, ← items_map its stamp hi2, hz0]
    rw [hz, h1]
    rfl
  rw [hxml, ok_bind]
  simp only
  rw [cstr_document hwf h3]
  rfl

/-! ### C92 -/

/-- the observed operations do not look at the log -/
theorem logged_simulates {σ : Type} (o : Ops σ) (pre : List Act) : Simulates o.logged o.logged fun q => (q.1, pre ++ q.2) := by
  refine ⟨?_, ?_, ?_⟩
  · rintro ⟨s, l⟩ f
    rw [logged_send_eq, logged_send_eq]
    cases o.send s f with
    | error e => rfl
    | ok q => simp [Except.map]
  · rintro ⟨s, l⟩ f
    rw [logged_recv_eq, logged_recv_eq]
    cases o.recv s f with
    | error e => rfl
    | ok q => simp [Except.map]
  · rintro ⟨s, l⟩
    rw [logged_purge_eq, logged_purge_eq]
    cases o.purge s with
    | error e => rfl
    | ok q => simp [Except.map]

theorem isRequest_readout {addr : List Byte} {dest : Int} {l : List Act} {n : Nat} {f : Frame} (hr : Reached addr dest l) (hd : 0 ≤ dest ∧ dest ≤ 255)
    (h : IsRequest (UInt8.ofNat dest.toNat) n f) : ReadoutFrame addr f := by
  obtain ⟨h1, h2, h3⟩ := h
  split at h3
  · exact .request 0x7B dest (.inr rfl) (reached_dest hr) hd ⟨h1, h3, h2⟩
  · exact .request 0x5B dest (.inl rfl) (reached_dest hr) hd ⟨h1, h3, h2⟩

/-- C92: whatever the handle does, a multi-telegram readout sends nothing but resets, the selection of the meter the user
named and requests to it; it either fails silently with
status 1, or it has reached the meter the user named and prints the XML text of exactly the telegrams it accepted, in the order
they arrived; every request of the session went to that meter. -/
theorem C92_multi {σ : Type} (junk0 : Nat → Byte) (junk : Nat → Nat → Byte) (stamps : Nat → Option (List Byte)) (o : Ops σ) (ho : Sound o) (st : Settings)
    (hst : SettingsOk st) (s : σ) (mf : Int) (addr : List Byte) (e : Exit (σ × List Act))
    (h : multiTool junk0 junk stamps o.logged st (s, []) mf addr = .ok e) :
    (∀ f c, Act.sent f c ∈ e.state.2 → ReadoutFrame addr f) ∧
    ((e.code = 1 ∧ e.out = []) ∨
     ∃ resets sel session dest text t ts m, e.code = 0 ∧ e.out = [.xml text] ∧ e.state.2 = resets ++ sel ++ session ∧ OnlyResets resets ∧
      Reached addr dest sel ∧ 0 ≤ dest ∧ dest ≤ 255 ∧
      (∀ pre f c post, session = pre ++ .sent f c :: post → IsRequest (UInt8.ofNat dest.toNat) (accepted pre).length f) ∧
      accepted session = (t :: ts).map (·.1) ∧ (∀ i (hi : i < (t :: ts).length), (t :: ts)[i].2 = stamps i) ∧
      frameXml junk0 junk t ts = .ok ⟨some m, false, []⟩ ∧ cstr m = .ok text) := by
  unfold multiTool at h
  rw [bind_eq_ok] at h
  obtain ⟨⟨ok, s1, log1⟩, h1, h⟩ := h
  obtain ⟨l1, e1, r1⟩ := init_log o s [] ok _ h1
  simp only [List.nil_append] at e1
  subst e1
  have n1 : ∀ f c, Act.sent f c ∈ log1 → ReadoutFrame addr f := fun f c hm => .reset (r1 f c hm)
  simp only at h
  by_cases hok : ok = false
  · rw [if_pos hok] at h; cases h; exact ⟨n1, .inl ⟨rfl, rfl⟩⟩
  rw [if_neg hok, bind_eq_ok] at h
  obtain ⟨⟨a, s2, log2⟩, h2, h⟩ := h
  obtain ⟨l, e2, n2, hreach⟩ := reached_log o s1 log1 addr a _ h2
  simp only at e2 h
  subst e2
  have n12 : ∀ f c, Act.sent f c ∈ log1 ++ l → ReadoutFrame addr f := by
    intro f c hm
    rcases List.mem_append.mp hm with hm | hm
    · exact n1 f c hm
    · exact n2 f c hm
  cases a with
  | none => simp only at h; cases h; exact ⟨n12, .inl ⟨rfl, rfl⟩⟩
  | some dest =>
    simp only at h
    have hre := hreach dest rfl
    by_cases hd : 0 ≤ dest ∧ dest ≤ 255
    case neg =>
      have hb : isPrimaryAddress dest = false := by
        cases hx : isPrimaryAddress dest with
        | false => rfl
        | true => exact absurd ((isPrimary_iff dest).mp hx) hd
      unfold sendrecvRequest at h
      rw [if_pos hb, ok_bind] at h
      simp only at h
      rw [if_pos (by decide)] at h
      cases h
      exact ⟨n12, .inl ⟨rfl, rfl⟩⟩
    have hsim := sendrecv_sim o.logged o.logged (fun q => (q.1, log1 ++ l ++ q.2)) (logged_simulates o _) st (s2, []) dest Frame.zero mf
    simp only [List.append_nil] at hsim
    rw [hsim] at h
    cases hq : sendrecvRequest o.logged st (s2, []) dest Frame.zero mf with
    | error e => rw [hq] at h; cases h
    | ok out =>
      rw [hq] at h
      have hdb : dest = ((UInt8.ofNat dest.toNat).toNat : Int) := by simp; omega
      have hpost := sendrecv_post o ho st hst s2 (UInt8.ofNat dest.toNat) Frame.zero (by decide) mf out (by rw [← hdb]; exact hq)
      have n3 : ∀ f c, Act.sent f c ∈ log1 ++ l ++ out.state.2 → ReadoutFrame addr f := by
        intro f c hm
        rcases List.mem_append.mp hm with hm | hm
        · exact n12 f c hm
        · obtain ⟨pre, post, hsp⟩ := List.append_of_mem hm
          exact isRequest_readout hre hd (hpost.good.requests pre f c post hsp).1
      simp only [Except.map, ok_bind, mapOut] at h
      by_cases hc : out.code ≠ 0
      · rw [if_pos hc] at h; cases h; exact ⟨n3, .inl ⟨rfl, rfl⟩⟩
      rw [if_neg hc] at h
      have hc : out.code = 0 := Decidable.byContradiction hc
      generalize hz : out.chain.zipIdx.map (fun q => (q.1, stamps q.2)) = z at h
      cases z with
      | nil => simp only at h; cases h; exact ⟨n3, .inl ⟨rfl, rfl⟩⟩
      | cons t ts =>
        simp only at h
        rw [bind_eq_ok] at h
        obtain ⟨x, h6, h⟩ := h
        cases hx : x.text with
        | none => rw [hx] at h; simp only at h; cases h; exact ⟨n3, .inl ⟨rfl, rfl⟩⟩
        | some m =>
          rw [hx] at h
          simp only at h
          rw [bind_eq_ok] at h
          obtain ⟨txt, h7, h⟩ := h
          cases h
          have hk := frame_kept junk0 junk t ts x h6 (by rw [hx]; simp)
          have hchain : out.chain = accepted out.state.2 := by
            have he := hpost.ending
            rw [hc] at he
            generalize hl : out.state.2 = log at he ⊢
            generalize hch : out.chain = chain at he ⊢
            cases he with
            | done pre f r x h1 h2 => rfl
          refine ⟨n3, .inr ⟨log1, l, out.state.2, dest, txt, t, ts, m, rfl, rfl, rfl, r1, hre, hd.1, hd.2, ?_, ?_, ?_, ?_, h7⟩⟩
          · intro pre f c post hsp
            exact (hpost.good.requests pre f c post hsp).1
          · rw [← hchain, ← hz, List.map_map]
            have : ((fun x : Frame × Option (List Byte) => x.1) ∘ fun q : Frame × Nat => (q.1, stamps q.2)) = Prod.fst := rfl
            rw [this, List.zipIdx_map_fst]
          · intro i hi
            simp only [← hz]
            simp
          · rw [h6]
            obtain ⟨k1, k2⟩ := hk
            obtain ⟨tx, lb, lr⟩ := x
            simp only at hx k1 k2
            subst hx k1 k2
            rfl

theorem ReadableT.basics {more : Bool} {t : Spec.Telegram} (h : ReadableT more t) : ∃ c a p, t = .data c a 0x72 p ∧ c &&& 0x40 = 0 ∧ 12 ≤ p.length ∧ p.length ≤ 252 := by
  obtain ⟨c, a, p, rs, rfl, hc, h1, h2, _⟩ := h
  refine ⟨c, a, p, rfl, ?_, h1, h2⟩
  simp only [List.mem_cons, List.not_mem_nil, or_false] at hc
  rcases hc with rfl | rfl | rfl | rfl <;> decide

theorem Readout.basics : ∀ {ts : List Spec.Telegram}, Readout ts → ∀ t ∈ ts, ∃ more, ReadableT more t
  | [], h => h.elim
  | [t], h => fun u hu => ⟨false, by rw [List.mem_singleton.mp hu]; exact h⟩
  | t :: u :: ts, h => fun v hv => by
    rcases List.mem_cons.mp hv with rfl | hv
    · exact ⟨true, h.1⟩
    · exact Readout.basics (ts := u :: ts) h.2 v hv

theorem items_reads {t : Spec.Telegram} {f : Frame} {stamp : Option (List Byte)} {its : List Item} {more : Bool} (hr : ReadableT more t) (hf : Carries f t)
    (hi : TelegramReads t stamp its) (h : VarHeader) (hh : ∀ c a ci p, t = .data c a ci p → HeaderIs h p) : Reads f h (its.map (·.1)) := by
  obtain ⟨c, a, p, rfl, hd, h12, h252⟩ := ReadableT.basics hr
  obtain ⟨c', a', p', rs, e, ht, hm, _⟩ := hi
  cases e
  rw [hm]
  exact reads_carries f c a p hf hd h12 h252 h (hh c a 0x72 p rfl) rs ht

/-- a header for every payload -/
theorem header_exists (p : List Byte) (h : 12 ≤ p.length) : ∃ v, HeaderIs v p := by
  match p, h with
  | a :: b :: c :: d :: e :: f :: g :: i :: j :: k :: l :: m :: t, _ =>
    exact ⟨⟨⟨[a, b, c, d], rfl⟩, ⟨[e, f], rfl⟩, g, i, j, k, ⟨[l, m], rfl⟩⟩, rfl⟩

theorem items_pointwise (stamps : Nat → Option (List Byte)) : ∀ (ts : List Spec.Telegram) (gs : List Frame) (tss : List (List Item)) (n : Nat),
    (∀ t ∈ ts, ∃ more, ReadableT more t) → Pointwise Carries gs ts → tss.length = ts.length →
    (∀ i (h1 : i < ts.length) (h2 : i < tss.length), TelegramReads ts[i] (stamps (n + i)) tss[i]) →
    Pointwise ItemsOf ((gs.zipIdx n).map fun q => (q.1, stamps q.2)) tss
  | [], gs, tss, n, _, hg, hl, _ => by
    cases hg
    cases tss with
    | nil => exact .nil
    | cons => cases hl
  | t :: ts, gs, tss, n, hr, hg, hl, hi => by
    cases hg with
    | @cons g _ gs _ hgt hgs =>
      cases tss with
      | nil => cases hl
      | cons its tss =>
        have h0 := hi 0 (by simp) (by simp)
        obtain ⟨more, hrt⟩ := hr t (by simp)
        obtain ⟨c, a, p, e, _, h12, _⟩ := ReadableT.basics hrt
        obtain ⟨v, hv⟩ := header_exists p h12
        refine .cons ⟨⟨v, items_reads hrt hgt h0 v ?_⟩, ?_⟩ (items_pointwise stamps ts gs tss (n + 1) (fun u hu => hr u (by simp [hu])) hgs (by simpa using hl) ?_)
        · intro c' a' ci p' e'
          rw [e] at e'
          cases e'
          exact hv
        · obtain ⟨_, _, _, _, _, _, _, hs⟩ := h0
          exact hs
        · intro i h1 h2
          have := hi (i + 1) (by simp; omega) (by simp; omega)
          simpa [Nat.add_assoc, Nat.add_comm 1 i] using this

/-- C92 on the wire, with the restrictions of C56: the meter can be reached, and from then on the bus behaves like a meter that follows
the frame count bit and has the telegrams `ts`, where exchanges get lost, but never more than `max_data_retry` in a row.
Then the complete document with the records of all telegrams in order is printed. -/
theorem C92_wire_partial (junk0 : Nat → Byte) (junk : Nat → Nat → Byte) (stamps : Nat → Option (List Byte)) (hst : ∀ i, StampOk (stamps i))
    (hcd : ∀ i t, stamps i = some t → CharData t) (k : Kind) (env : Env) (ho : IsOpen k env) (hw : Writable env) (purge : Int) (hp : purge ≠ PURGE_S2M)
    (before ready after : List (List Byte)) (addr : List Byte) (dest : Byte) (hi : Resettable env before ready) (hreach : Reachable env addr ready dest after)
    (ts : List Spec.Telegram) (hts : Readout ts) (fate : Nat → Fate) (henv : env.after after = meterEnv dest ts fate)
    (hnoise : ∀ n b, fate n = .noise b → b ≠ 0xE5 ∧ b ≠ 0x10 ∧ b ≠ 0x68) (st : Settings) (max : Nat) (hmax : st.maxDataRetry = max)
    (hfair : ∀ n, ∃ j, j ≤ max ∧ fate (n + j) = .delivered) (mf : Int) (hmf : (ts.length : Int) ≤ mf)
    (h : VarHeader) (hh : ∀ c a ci p, ts.head? = some (.data c a ci p) → HeaderIs h p)
    (tss : List (List Item)) (hl : tss.length = ts.length) (hits : ∀ i (h1 : i < ts.length) (h2 : i < tss.length), TelegramItems ts[i] (stamps i) tss[i])
    (hc : total tss < 2 ^ 31) (hk : ts.length < 2 ^ 31) :
    ∃ name b, productName h = .ok name ∧
      multiTool junk0 junk stamps ((busLink k env).ops purge) st ⟨[], before⟩ mf addr =
        .ok ⟨0, [.xml (document (slaveGroup h name (mediumLookup h.medium) :: readoutGroups tss))], b⟩ := by
  obtain ⟨out, h1, h2, h3, _⟩ := C73_lossy_readout k dest ts hts fate hnoise purge hp st max hmax hfair mf hmf Frame.zero
  have hsim := sendrecv_sim _ _ _ (bus_simulates k env after purge) st ⟨[], []⟩ dest.toNat Frame.zero mf
  rw [henv, h1] at hsim
  unfold multiTool
  rw [init_wire k env ho hw purge before ready hi, ok_bind]
  simp only
  rw [if_neg (by decide), reach_wire k env ho hw purge hp addr ready dest after hreach, ok_bind]
  simp only
  simp only [Bus.earlier, List.append_nil, Except.map] at hsim
  rw [hsim, ok_bind]
  simp only [mapOut]
  simp only [h2, ne_eq, not_true_eq_false, if_false]
  have hpw := items_pointwise stamps ts out.chain tss 0 (Readout.basics hts) h3 hl (by intro i a b; rw [Nat.zero_add]; exact (hits i a b).1)
  cases ts with
  | nil => exact hts.elim
  | cons t ts =>
    cases tss with
    | nil => cases hl
    | cons its tss =>
      cases hch : out.chain with
      | nil => rw [hch] at h3; cases h3
      | cons g gs =>
        rw [hch] at h3 hpw
        cases h3 with
        | cons hgt hgs =>
          rw [List.zipIdx_cons, List.map_cons] at hpw ⊢
          simp only
          cases hpw with
          | cons hp1 hp2 =>
            have h0 := (hits 0 (by simp) (by simp)).1
            obtain ⟨more, hrt⟩ := Readout.basics hts t (by simp)
            have hread := items_reads hrt hgt h0 h (fun c a ci p e => hh c a ci p (by rw [← e]; rfl))
            have hstamp : ∀ x ∈ its :: tss, ∀ it ∈ x, Showable it ∧ ∃ i, it.2.2 = stamps i := by
              intro x hx it hit
              obtain ⟨i, hi, rfl⟩ := List.mem_iff_getElem.mp hx
              obtain ⟨⟨_, _, _, _, _, _, _, hs⟩, hs'⟩ := hits i (by rw [← hl]; exact hi) hi
              exact ⟨hs' it hit, i, hs it hit⟩
            obtain ⟨m, name, e1, e2, e3⟩ := C56_frame_partial junk0 junk (g, stamps 0) _ h its tss hread hp1.2 hp2
              (fun x hx it hit => ⟨(hstamp x hx it hit).1, by obtain ⟨i, e⟩ := (hstamp x hx it hit).2; rw [e]; exact hst i⟩) hc (by rw [hl]; exact hk)
            refine ⟨name, Bus.earlier after out.state, e2, ?_⟩
            have hwf : WellFormedXml (document (slaveGroup h name (mediumLookup h.medium) :: readoutGroups (its :: tss))) := by
              apply document_wellFormed
              intro gr hgr
              rcases List.mem_cons.mp hgr with rfl | hgr
              · exact slaveGroup_ok _ _ _
              · refine readoutGroups_ok _ ?_ gr hgr
                intro x hx it hit t he
                obtain ⟨i, e⟩ := (hstamp x hx it hit).2
                rw [e] at he
                exact hcd i t he
            rw [e1, ok_bind]
            simp only
            rw [cstr_document hwf e3]
            rfl

/-- a meter with address 1 and the volume telegram: the telegram of `volumeTelegram` -/
def volumeWire : Spec.Telegram := .data 0x08 1 0x72 (hdr ++ [0x01, 0x13, 5])

/-- a bus on which the second and later resets are acknowledged and requests to address 1 are answered in three pieces -/
def volumeBus : Env :=
  { respond := fun sent => if sent.getLast? = some (Spec.Telegram.short 0x5B 1).wire then evs [volumeWire.wire.take 1, (volumeWire.wire.drop 1).take 7, volumeWire.wire.drop 8]
      else if sent.length = 2 then [.data [0xE5]] else []
    junk := fun _ => 0
    wret := fun _ n => n
    tty := true }

theorem volume_tiles : Tiles ((hdr ++ [0x01, 0x13, 5]).drop 12) [.value 0x01 [] 0x13 [] [] [5]] :=
  .cons (dif := 0x01) (difes := []) (vif := 0x13) (text := []) (vifes := []) (data := [5]) (bs := []) (rs := [])
    ⟨by decide, by decide, by decide, by decide, by decide, by decide, by decide, by decide, by decide,
      by unfold DataFits; rw [if_neg (by decide)]; rfl⟩ .nil

/-- the hypotheses of C91_wire_partial for the serial tool and the argument "1" -/
example (k : Kind) (junk0 : Nat → Byte) (junk : Nat → Nat → Byte) : ∃ name, productName hdrHeader = .ok name ∧
    requestTool true junk0 junk volumeItem.2.2 ((busLink k volumeBus).ops PURGE_M2S) ⟨[], []⟩ (cs! "1") = .ok ⟨0,
      [.xml (document (slaveGroup hdrHeader name (mediumLookup 7) :: recordGroups none 0 [volumeItem]))],
      ⟨[], [pingWire 0xFD, pingWire 0xFD, (Spec.Telegram.short 0x5B 1).wire]⟩⟩ :=
  C91_wire_partial true junk0 junk volumeItem.2.2 volume_showable.2 (by intro t h; cases h; exact charData_all _ (by decide)) k volumeBus
    (by cases k <;> simp [IsOpen, volumeBus]) (fun _ _ => rfl) PURGE_M2S (by decide) [] [pingWire 0xFD, pingWire 0xFD] [pingWire 0xFD, pingWire 0xFD] (cs! "1") 1
    ⟨rfl, ⟨[], by simp [Chunks], by decide⟩, [[0xE5]], by simp [Chunks], by decide⟩
    (.primary 1 (.digit 49 (by decide)) (fun h => absurd h.1 (by decide)) (by decide)) 0x08 1 (hdr ++ [0x01, 0x13, 5]) ⟨by decide, by decide⟩ (by decide) (by decide)
    [volumeWire.wire.take 1, (volumeWire.wire.drop 1).take 7, volumeWire.wire.drop 8] (by unfold Chunks; decide +kernel) (by decide +kernel) (by decide +kernel)
    hdrHeader (by unfold HeaderIs; decide) [.value 0x01 [] 0x13 [] [] [5]] volume_tiles [cs! "Volume (m m^3)"] rfl
    (by intro it hit; have : it = volumeItem := List.mem_singleton.mp hit; rw [this]; exact volume_showable.1)

/-- a bus that, after two resets, is a meter with that telegram of which the first request gets lost -/
def lossyBus : Env :=
  { respond := fun sent => if sent.length ≤ 2 then [] else (meterEnv 1 [volumeWire] fun n => if n = 0 then .requestLost else .delivered).respond (sent.drop 2)
    junk := fun _ => 0
    wret := fun _ n => n
    tty := true }

example (k : Kind) (junk0 : Nat → Byte) (junk : Nat → Nat → Byte) : ∃ name b, productName hdrHeader = .ok name ∧
    multiTool junk0 junk (fun _ => volumeItem.2.2) ((busLink k lossyBus).ops PURGE_M2S) Settings.default ⟨[], []⟩ 16 (cs! "1") = .ok ⟨0,
      [.xml (document (slaveGroup hdrHeader name (mediumLookup 7) :: recordGroups none 0 [volumeItem]))], b⟩ :=
  C92_wire_partial junk0 junk (fun _ => volumeItem.2.2) (fun _ => volume_showable.2) (by intro _ t h; cases h; exact charData_all _ (by decide)) k lossyBus
    (by cases k <;> simp [IsOpen, lossyBus]) (fun _ _ => rfl) PURGE_M2S (by decide) [] [pingWire 0xFD, pingWire 0xFD] [pingWire 0xFD, pingWire 0xFD] (cs! "1") 1
    ⟨rfl, ⟨[], by simp [Chunks], by decide⟩, [], by simp [Chunks], by decide⟩
    (.primary 1 (.digit 49 (by decide)) (fun h => absurd h.1 (by decide)) (by decide)) [volumeWire]
    ⟨0x08, 1, _, _, rfl, by decide, by decide, by decide, volume_tiles, by simp [EndsWithMore]⟩ (fun n => if n = 0 then .requestLost else .delivered)
    (by
      have : ∀ s : List (List Byte), s ≠ [] → lossyBus.respond ([pingWire 0xFD, pingWire 0xFD] ++ s) =
          (meterEnv 1 [volumeWire] fun n => if n = 0 then .requestLost else .delivered).respond s := by
        intro s hs
        simp only [lossyBus]
        rw [if_neg (by cases s with | nil => exact absurd rfl hs | cons => simp)]
        rfl
      have hf : (fun s => lossyBus.respond ([pingWire 0xFD, pingWire 0xFD] ++ s)) =
          (meterEnv 1 [volumeWire] fun n => if n = 0 then .requestLost else .delivered).respond := by
        funext s
        cases s with
        | nil => rfl
        | cons x s => exact this (x :: s) (by simp)
      unfold Env.after
      rw [hf]
      rfl)
    (by intro n b h; split at h <;> cases h) Settings.default 3 rfl
    (by intro n; refine ⟨1, by decide, by simp⟩) 16 (by decide) hdrHeader (by intro c a ci p h; cases h; rfl) [[volumeItem]] rfl
    (by
      intro i h1 h2
      have : i = 0 := by simp at h1; omega
      subst this
      refine ⟨⟨0x08, 1, _, _, rfl, volume_tiles, rfl, ?_⟩, ?_⟩
      · intro it hit
        have : it = volumeItem := by simpa using hit
        rw [this]
      · intro it hit
        have : it = volumeItem := by simpa using hit
        rw [this]
        exact volume_showable.1)
    (by decide) (by decide)

/-! Direct instances of the theorems above: any bus, primary address 1. -/

example (k : Kind) (env : Env) (b : Bus) (junk0 : Nat → Byte) (junk : Nat → Nat → Byte) (e : Exit (Bus × List Act))
    (h : requestTool true junk0 junk none ((busLink k env).ops PURGE_M2S).logged (b, []) (cs! "1") = .ok e) := C91_request true junk0 junk none _ b _ e h
example (k : Kind) (env : Env) (b : Bus) (junk0 : Nat → Byte) (junk : Nat → Nat → Byte) (e : Exit (Bus × List Act))
    (h : multiTool junk0 junk (fun _ => none) ((busLink k env).ops PURGE_M2S).logged Settings.default (b, []) 16 (cs! "1") = .ok e) :=
  C92_multi junk0 junk (fun _ => none) _ (handle_sound k env PURGE_M2S) Settings.default (by unfold SettingsOk; decide) b 16 _ e h

end Mbus
