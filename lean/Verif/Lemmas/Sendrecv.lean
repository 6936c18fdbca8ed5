import Verif.Spec.Session
import Verif.Lemmas.App
namespace Mbus
open Spec

theorem accepted_append (a b : List Act) : accepted (a ++ b) = accepted a ++ accepted b := by
  induction a with
  | nil => rfl
  | cons x a ih =>
    cases x <;> simp only [List.cons_append, accepted, ih]
    split <;> simp

theorem sends_append (a b : List Act) : sends (a ++ b) = sends a + sends b := by
  induction a with
  | nil => simp [sends]
  | cons x a ih => cases x <;> simp only [List.cons_append, sends, ih] <;> omega

/-- parsing tells whether more follows -/
theorem parse_more (f : Frame) (x x' : FrameData) (pr : Int) (hs : f.dataSize ≤ 252) (h : frameDataParse f x = .ok (pr, x')) :
    (pr ≠ -1 → x'.type = DATA_VARIABLE ∧ x'.var.more ≠ 0 → MoreFollows f) ∧
    (pr ≠ -1 → MoreFollows f → x'.type = DATA_VARIABLE ∧ x'.var.more ≠ 0) ∧
    (pr = -1 → ¬ MoreFollows f) := by
  have hc := frameDataParse_cases f x
  by_cases hd : f.control &&& 0x40 = 0
  · by_cases h72 : f.ci = 0x72
    · have e := hc.2.2 hd h72
      rw [h] at e
      by_cases h0 : f.dataSize = 0
      · rw [if_pos h0] at e
        simp only [Except.ok.injEq, Prod.mk.injEq] at e
        exact ⟨fun hne => absurd e.1 hne, fun hne => absurd e.1 hne, fun _ hm => by have := hm.2.2.1; omega⟩
      · rw [if_neg h0] at e
        cases hv : variableParse f x.var with
        | error e' => rw [hv] at e; simp at e
        | ok q =>
          obtain ⟨q1, q2⟩ := q
          rw [hv] at e
          simp only [ok_bind, Except.ok.injEq, Prod.mk.injEq] at e
          obtain ⟨rfl, rfl⟩ := e
          rcases variableParse_code _ _ _ _ hv with hq | hq
          · subst hq
            obtain ⟨h12, _, rs, ht, _, _, hm⟩ := variableParse_sound f _ _ hs hv
            refine ⟨fun _ hx => ⟨hd, h72, h12, rs, ht, ?_⟩, fun _ hx => ⟨rfl, ?_⟩, fun h => absurd h (by decide)⟩
            · rw [← tiles_more ht]
              have := hx.2
              simp only [hm] at this
              by_cases h : (rs.any (fun r => difOf r == 0x1F)) = true
              · exact h
              · rw [if_neg h] at this; simp at this
            · obtain ⟨_, _, _, rs', ht', he⟩ := hx
              obtain ⟨v', h1, _, _, _, h5⟩ := variableParse_complete f x.var hs h12 rs' ht'
              rw [hv] at h1
              simp only [Except.ok.injEq, Prod.mk.injEq, true_and] at h1
              rw [h1, h5, if_pos ((tiles_more ht').mpr he)]
              decide
          · subst hq
            refine ⟨fun h => absurd rfl h, fun h => absurd rfl h, fun _ hx => ?_⟩
            obtain ⟨_, _, h12, rs', ht', he⟩ := hx
            obtain ⟨v', h1, _⟩ := variableParse_complete f x.var hs h12 rs' ht'
            rw [hv] at h1
            simp at h1
    · refine ⟨fun hp hx => ?_, fun _ hx => absurd hx.2.1 h72, fun _ hx => h72 hx.2.1⟩
      exfalso
      by_cases h73 : f.ci = 0x73
      · have e := hc.2.1 hd h73
        rw [h] at e
        by_cases h0 : f.dataSize = 0
        · rw [if_pos h0] at e
          simp only [Except.ok.injEq, Prod.mk.injEq] at e
          exact hp e.1
        · rw [if_neg h0] at e
          cases hv : fixedParse f x.fix with
          | error e' => rw [hv] at e; simp at e
          | ok q =>
            rw [hv] at e
            simp only [ok_bind, Except.ok.injEq, Prod.mk.injEq] at e
            obtain ⟨_, rfl⟩ := e
            exact absurd hx.1 (by show ¬ DATA_FIXED = DATA_VARIABLE; decide)
      · by_cases h70 : f.ci = 0x70
        · rw [frameDataParse_error f x hd h70] at h
          simp only [Except.ok.injEq, Prod.mk.injEq] at h
          obtain ⟨_, rfl⟩ := h
          exact absurd hx.1 (by show ¬ DATA_ERROR = DATA_VARIABLE; decide)
        · have hd' : f.control &&& MASK_DIR = MASK_DIR_S2M := hd
          unfold frameDataParse at h
          rw [if_pos hd', if_neg h70, if_neg h73, if_neg h72] at h
          simp only [Except.ok.injEq, Prod.mk.injEq] at h
          exact hp h.1.symm
  · rw [hc.1 hd] at h
    simp only [Except.ok.injEq, Prod.mk.injEq] at h
    obtain ⟨rfl, rfl⟩ := h
    exact ⟨fun h => absurd rfl h, fun h => absurd rfl h, fun _ hx => hd hx.1⟩

/-! ### appending one event -/

theorem snoc_split {α : Type} {l : List α} {e x : α} {pre post : List α} (h : l ++ [e] = pre ++ x :: post) :
    (∃ post', post = post' ++ [e] ∧ l = pre ++ x :: post') ∨ (post = [] ∧ pre = l ∧ x = e) := by
  rcases List.eq_nil_or_concat post with rfl | ⟨p', y, rfl⟩
  · right
    have := List.append_inj' h rfl
    simp only [List.cons.injEq, and_true] at this
    exact ⟨rfl, this.1.symm, this.2.symm⟩
  · left
    rw [List.concat_eq_append] at h
    rw [show pre ++ x :: (p' ++ [y]) = (pre ++ x :: p') ++ [y] by simp] at h
    have := List.append_inj' h rfl
    simp only [List.cons.injEq, and_true] at this
    exact ⟨p', by rw [this.2, List.concat_eq_append], this.1⟩

theorem snoc_suffix {α : Type} {l : List α} {e : α} {pre seg : List α} (h : l ++ [e] = pre ++ seg) :
    seg = [] ∨ ∃ seg', seg = seg' ++ [e] ∧ l = pre ++ seg' := by
  rcases List.eq_nil_or_concat seg with rfl | ⟨p', y, rfl⟩
  · exact .inl rfl
  · right
    rw [List.concat_eq_append] at h
    rw [← List.append_assoc] at h
    have := List.append_inj' h rfl
    simp only [List.cons.injEq, and_true] at this
    exact ⟨p', by rw [this.2, List.concat_eq_append], this.1⟩

/-- every accepted-free end piece of the log has at most `k` transmissions -/
def Tail (k : Int) (log : List Act) : Prop := ∀ pre seg, log = pre ++ seg → accepted seg = [] → (sends seg : Int) ≤ k

/-- what holds of every log -/
structure Good (a : Byte) (max : Int) (log : List Act) : Prop where
  requests : ∀ pre f c post, log = pre ++ .sent f c :: post →
    IsRequest a (accepted pre).length f ∧ ∀ g, (accepted pre).getLast? = some g → MoreFollows g
  bounded : ∀ pre seg post, log = pre ++ seg ++ post → accepted seg = [] → (sends seg : Int) ≤ max + 1

theorem good_snoc {a : Byte} {max k : Int} {log : List Act} {e : Act} (hg : Good a max log) (ht : Tail k (log ++ [e]))
    (hk : k ≤ max + 1) (he : ∀ f c, e = .sent f c → IsRequest a (accepted log).length f ∧ ∀ g, (accepted log).getLast? = some g → MoreFollows g) :
    Good a max (log ++ [e]) := by
  constructor
  · intro pre f c post h
    rcases snoc_split h with ⟨post', _, h2⟩ | ⟨_, rfl, h2⟩
    · exact hg.requests pre f c post' h2
    · exact he f c h2.symm
  · intro pre seg post h ha
    rcases snoc_suffix h with rfl | ⟨post', _, h2⟩
    · rw [List.append_nil] at h
      have := ht pre seg h ha
      omega
    · exact hg.bounded pre seg post' h2 ha

theorem tail_snoc {k : Int} {log : List Act} {e : Act} (ht : Tail k log) (hk : 0 ≤ k) :
    Tail (k + sends [e]) (log ++ [e]) := by
  intro pre seg h ha
  rcases snoc_suffix h with rfl | ⟨seg', rfl, h2⟩
  · simp only [sends]; omega
  · rw [accepted_append, List.append_eq_nil_iff] at ha
    have := ht pre seg' h2 ha.1
    rw [sends_append]; omega

theorem tail_accepted {log : List Act} {f : Frame} : Tail 0 (log ++ [.received RECV_OK f]) := by
  intro pre seg h ha
  rcases snoc_suffix h with rfl | ⟨seg', rfl, h2⟩
  · simp [sends]
  · rw [accepted_append, List.append_eq_nil_iff] at ha
    simp [accepted] at ha

/-- the result code of the data parser depends on the frame only -/
theorem parse_indep (f : Frame) (x y : FrameData) (c : Int) (x' : FrameData) (h : frameDataParse f x = .ok (c, x')) :
    ∃ y', frameDataParse f y = .ok (c, y') := by
  have hx := frameDataParse_cases f x
  have hy := frameDataParse_cases f y
  by_cases hd : f.control &&& 0x40 = 0
  · by_cases h72 : f.ci = 0x72
    · rw [hx.2.2 hd h72] at h
      rw [hy.2.2 hd h72]
      by_cases h0 : f.dataSize = 0
      · rw [if_pos h0] at h ⊢
        simp only [Except.ok.injEq, Prod.mk.injEq] at h
        exact ⟨_, by rw [h.1]⟩
      · rw [if_neg h0] at h ⊢
        by_cases h12 : f.dataSize < 12
        · rw [variableParse_short f _ h12] at h ⊢
          simp only [ok_bind, Except.ok.injEq, Prod.mk.injEq] at h
          exact ⟨_, by rw [ok_bind, h.1]⟩
        · obtain ⟨k1, a1, _, e1⟩ := variableParse_eq f x.var (by omega)
          obtain ⟨k2, a2, _, e2⟩ := variableParse_eq f y.var (by omega)
          rw [a1] at a2
          cases a2
          rw [e1] at h
          rw [e2]
          cases hv : varLoop f.data f.dataSize f.dataSize 12 { header := k1, records := [], nrecords := 0, more := 0 } with
          | error e => rw [hv] at h; simp at h
          | ok q =>
            rw [hv] at h
            simp only [ok_bind, Except.ok.injEq, Prod.mk.injEq] at h
            exact ⟨_, by rw [ok_bind, h.1]⟩
    · by_cases h73 : f.ci = 0x73
      · rw [hx.2.1 hd h73] at h
        rw [hy.2.1 hd h73]
        by_cases h0 : f.dataSize = 0
        · rw [if_pos h0] at h ⊢
          simp only [Except.ok.injEq, Prod.mk.injEq] at h
          exact ⟨_, by rw [h.1]⟩
        · rw [if_neg h0] at h ⊢
          have hf : ∀ c u, fixedParse f x.fix = .ok (c, u) → ∃ w, fixedParse f y.fix = .ok (c, w) := by
            intro c u
            unfold fixedParse
            by_cases hne : f.dataSize ≠ 16
            · rw [if_pos hne, if_pos hne]
              intro h; simp only [Except.ok.injEq, Prod.mk.injEq] at h; exact ⟨_, by rw [h.1]⟩
            · rw [if_neg hne, if_neg hne]
              exact fun h => ⟨_, h⟩
          cases hv : fixedParse f x.fix with
          | error e => rw [hv] at h; simp at h
          | ok q =>
            rw [hv] at h
            obtain ⟨w, hw⟩ := hf q.1 q.2 hv
            simp only [ok_bind, Except.ok.injEq, Prod.mk.injEq] at h
            exact ⟨_, by rw [hw, ok_bind, h.1]⟩
      · by_cases h70 : f.ci = 0x70
        · rw [frameDataParse_error f x hd h70] at h
          simp only [Except.ok.injEq, Prod.mk.injEq] at h
          exact ⟨_, by rw [frameDataParse_error f y hd h70, h.1]⟩
        · have hd' : f.control &&& MASK_DIR = MASK_DIR_S2M := hd
          unfold frameDataParse at h ⊢
          rw [if_pos hd', if_neg h70, if_neg h73, if_neg h72] at h ⊢
          simp only [Except.ok.injEq, Prod.mk.injEq] at h
          exact ⟨_, by rw [h.1]⟩
  · rw [hx.1 hd] at h
    rw [hy.1 hd]
    simp only [Except.ok.injEq, Prod.mk.injEq] at h
    exact ⟨_, by rw [h.1]⟩

/-! ### the loop -/

structure Inv (a : Byte) (max mf : Int) (log : List Act) (req : Frame) (done : List Frame) (retry count : Int) : Prop where
  good : Good a max log
  tail : Tail retry log
  streak : ∃ pre seg, log = pre ++ seg ∧ accepted seg = [] ∧ (sends seg : Int) = retry
  request : IsRequest a (accepted log).length req
  hdone : done = accepted log
  hcount : count = (accepted log).length
  last : ∀ g, (accepted log).getLast? = some g → MoreFollows g
  total : (sends log : Int) ≤ count * (max + 1) + retry
  r0 : 0 ≤ retry
  r1 : retry ≤ max + 1
  room : accepted log = [] ∨ count < mf

structure Post {σ : Type} (a : Byte) (max mf : Int) (out : SrOut (σ × List Act)) : Prop where
  good : Good a max out.state.2
  total : (sends out.state.2 : Int) ≤ out.chain.length * (max + 1)
  few : (accepted out.state.2).length ≤ 1 ∨ ((accepted out.state.2).length : Int) ≤ mf
  ending : Ending max mf out.code out.chain out.state.2

theorem flip_request {a : Byte} {n : Nat} {f : Frame} (h : IsRequest a n f) :
    IsRequest a (n + 1) { f with control := f.control ^^^ MASK_FCB } := by
  obtain ⟨h1, h2, h3⟩ := h
  refine ⟨h1, h2, ?_⟩
  show f.control ^^^ MASK_FCB = _
  rw [h3]
  rcases Nat.mod_two_eq_zero_or_one n with h | h
  · rw [if_pos h, if_neg (by omega)]; rfl
  · rw [if_neg (by omega), if_pos (by omega)]; rfl

theorem logged_send {σ : Type} {o : Ops σ} {s : σ × List Act} {f : Frame} {r : Int} {f' : Frame} {s' : σ × List Act}
    (h : o.logged.send s f = .ok (r, f', s')) : o.send s.1 f = .ok (r, f', s'.1) ∧ s'.2 = s.2 ++ [.sent f r] := by
  change (o.send s.1 f >>= _) = _ at h
  rw [bind_eq_ok] at h
  obtain ⟨⟨r1, f1, s1⟩, h1, h2⟩ := h
  simp only [Except.ok.injEq, Prod.mk.injEq] at h2
  obtain ⟨rfl, rfl, rfl⟩ := h2
  exact ⟨h1, rfl⟩

theorem logged_recv {σ : Type} {o : Ops σ} {s : σ × List Act} {f : Frame} {r : Int} {f' : Frame} {s' : σ × List Act}
    (h : o.logged.recv s f = .ok (r, f', s')) : o.recv s.1 f = .ok (r, f', s'.1) ∧ s'.2 = s.2 ++ [.received r f'] := by
  change (o.recv s.1 f >>= _) = _ at h
  rw [bind_eq_ok] at h
  obtain ⟨⟨r1, f1, s1⟩, h1, h2⟩ := h
  simp only [Except.ok.injEq, Prod.mk.injEq] at h2
  obtain ⟨rfl, rfl, rfl⟩ := h2
  exact ⟨h1, rfl⟩

theorem logged_purge {σ : Type} {o : Ops σ} {s : σ × List Act} {r : Int} {s' : σ × List Act}
    (h : o.logged.purge s = .ok (r, s')) : o.purge s.1 = .ok (r, s'.1) ∧ s'.2 = s.2 ++ [.purged r] := by
  change (o.purge s.1 >>= _) = _ at h
  rw [bind_eq_ok] at h
  obtain ⟨⟨r1, s1⟩, h1, h2⟩ := h
  simp only [Except.ok.injEq, Prod.mk.injEq] at h2
  obtain ⟨rfl, rfl⟩ := h2
  exact ⟨h1, rfl⟩

theorem frameDataParse_code (f : Frame) (x x' : FrameData) (c : Int) (h : frameDataParse f x = .ok (c, x')) : c = 0 ∨ c = -1 := by
  have hx := frameDataParse_cases f x
  by_cases hd : f.control &&& 0x40 = 0
  · by_cases h72 : f.ci = 0x72
    · rw [hx.2.2 hd h72] at h
      by_cases h0 : f.dataSize = 0
      · rw [if_pos h0] at h
        simp only [Except.ok.injEq, Prod.mk.injEq] at h
        exact .inr h.1.symm
      · rw [if_neg h0] at h
        cases hv : variableParse f x.var with
        | error e => rw [hv] at h; simp at h
        | ok q =>
          rw [hv] at h
          simp only [ok_bind, Except.ok.injEq, Prod.mk.injEq] at h
          rw [← h.1]; exact variableParse_code _ _ _ _ hv
    · by_cases h73 : f.ci = 0x73
      · rw [hx.2.1 hd h73] at h
        by_cases h0 : f.dataSize = 0
        · rw [if_pos h0] at h
          simp only [Except.ok.injEq, Prod.mk.injEq] at h
          exact .inr h.1.symm
        · rw [if_neg h0] at h
          cases hv : fixedParse f x.fix with
          | error e => rw [hv] at h; simp at h
          | ok q =>
            rw [hv] at h
            simp only [ok_bind, Except.ok.injEq, Prod.mk.injEq] at h
            rw [← h.1]
            unfold fixedParse at hv
            by_cases hne : f.dataSize ≠ 16
            · rw [if_pos hne] at hv
              cases hv; exact .inr rfl
            · rw [if_neg hne] at hv
              simp only [bind_eq_ok] at hv
              obtain ⟨_, _, _, _, _, _, _, _, _, _, _, _, _, _, _, _, _, _, _, _, _, _, _, _, _, _, _, _, _, _, _, _, hv⟩ := hv
              cases hv; exact .inl rfl
      · by_cases h70 : f.ci = 0x70
        · rw [frameDataParse_error f x hd h70] at h
          simp only [Except.ok.injEq, Prod.mk.injEq] at h
          exact .inl h.1.symm
        · have hd' : f.control &&& MASK_DIR = MASK_DIR_S2M := hd
          unfold frameDataParse at h
          rw [if_pos hd', if_neg h70, if_neg h73, if_neg h72] at h
          simp only [Except.ok.injEq, Prod.mk.injEq] at h
          exact .inr h.1.symm
  · rw [hx.1 hd] at h
    simp only [Except.ok.injEq, Prod.mk.injEq] at h
    exact .inr h.1.symm

/-- the log after one more transmission -/
theorem inv_sent {a : Byte} {max mf : Int} {log : List Act} {req : Frame} {done : List Frame} {retry count : Int}
    (h : Inv a max mf log req done retry count) (hr : ¬ retry > max) (r : Int) :
    Good a max (log ++ [.sent req r]) ∧ Tail (retry + 1) (log ++ [.sent req r]) := by
  have ht : Tail (retry + 1) (log ++ [.sent req r]) := tail_snoc h.tail h.r0
  refine ⟨good_snoc h.good ht (by omega) ?_, ht⟩
  intro f c he
  cases he
  exact ⟨h.request, h.last⟩

theorem mul_succ_int (n : Nat) (M : Int) : ((n + 1 : Nat) : Int) * M = n * M + M := by
  rw [Int.natCast_add, Int.add_mul]; simp

set_option linter.unusedVariables false in
theorem sr_inv {σ : Type} (o : Ops σ) (ho : Sound o) (a : Byte) (max mf : Int) (s : σ × List Act) (req : Frame)
    (done : List Frame) (cur : Frame) (x : FrameData) (p : RecPtr) (retry count : Int) (out : SrOut (σ × List Act))
    (h : sendrecvLoop o.logged max mf s req done cur x p retry count = .ok out)
    (hi : Inv a max mf s.2 req done retry count) (hcur : cur.dataSize ≤ 252) : Post a max mf out := by
  have hdone := hi.hdone
  have hcount := hi.hcount
  have htot := hi.total
  have hr0 := hi.r0
  have hr1 := hi.r1
  subst hdone
  have few0 : (accepted s.2).length ≤ 1 ∨ ((accepted s.2).length : Int) ≤ mf := by
    rcases hi.room with h | h
    · left; rw [h]; simp
    · right; omega
  have few1 : ((accepted s.2).length + 1 ≤ 1) ∨ (((accepted s.2).length + 1 : Nat) : Int) ≤ mf := by
    rcases hi.room with h | h
    · left; rw [h]; simp
    · right; omega
  rw [sendrecvLoop] at h
  by_cases hr : retry > max
  · rw [dif_pos hr] at h
    cases h
    refine ⟨hi.good, ?_, few0, ?_⟩
    · show (sends s.2 : Int) ≤ _
      rw [List.length_append, List.length_singleton, mul_succ_int, ← hcount]
      omega
    · obtain ⟨pre, seg, e, e1, e2⟩ := hi.streak
      show Ending max mf 1 (accepted s.2 ++ [cur]) s.2
      rw [e]
      exact .exhausted pre seg cur e1 (by omega)
  · rw [dif_neg hr] at h
    cases hsend : o.logged.send s req with
    | error e => rw [hsend] at h; cases h
    | ok q =>
      obtain ⟨r, req', s1⟩ := q
      rw [hsend] at h
      obtain ⟨k1, k2⟩ := logged_send hsend
      obtain ⟨g1, t1⟩ := inv_sent hi hr r
      obtain ⟨u1, u2, u3⟩ := ho.send _ _ _ _ _ hi.request.1 k1
      have acc1 : accepted s1.2 = accepted s.2 := by rw [k2, accepted_append]; simp [accepted]
      have snd1 : (sends s1.2 : Int) = sends s.2 + 1 := by rw [k2, sends_append]; simp [sends]
      rw [← k2] at g1 t1
      have hreq : IsRequest a (accepted s.2).length req' := by
        have := hi.request; exact ⟨by rw [u1]; exact this.1, by rw [u2]; exact this.2.1, by rw [u3]; exact this.2.2⟩
      simp only at h
      by_cases hm1 : r = -1
      · rw [if_pos hm1] at h
        cases h
        refine ⟨g1, ?_, by simp only [acc1]; exact few0, ?_⟩
        · simp only [List.length_append, List.length_singleton, mul_succ_int, ← hcount]
          rw [snd1]
          omega
        · show Ending max mf (-1) (accepted s.2 ++ [cur]) s1.2
          rw [← acc1, k2, hm1]
          exact .sendFailed _ _ _
      · rw [if_neg hm1] at h
        cases hrecv : o.logged.recv s1 cur with
        | error e => rw [hrecv] at h; cases h
        | ok q =>
          obtain ⟨c, cur', s2⟩ := q
          rw [hrecv] at h
          obtain ⟨k3, k4⟩ := logged_recv hrecv
          have hds := ho.recv _ _ _ _ _ hcur k3
          simp only at h
          have snd2 : (sends s2.2 : Int) = sends s.2 + 1 := by rw [k4, sends_append, Int.natCast_add, snd1]; simp [sends]
          by_cases hok : c = RECV_OK
          · subst hok
            rw [if_pos rfl] at h
            have acc2 : accepted s2.2 = accepted s.2 ++ [cur'] := by rw [k4, accepted_append, acc1]; simp [accepted]
            have t2 : Tail 0 s2.2 := by rw [k4]; exact tail_accepted
            have g2 : Good a max s2.2 := by
              rw [k4]
              exact good_snoc g1 (by rw [← k4]; exact t2) (by omega) (fun f c he => by cases he)
            cases hpurge : o.logged.purge s2 with
            | error e => rw [hpurge] at h; cases h
            | ok q =>
              obtain ⟨pr, s3⟩ := q
              rw [hpurge] at h
              obtain ⟨_, k6⟩ := logged_purge hpurge
              have acc3 : accepted s3.2 = accepted s.2 ++ [cur'] := by rw [k6, accepted_append, acc2]; simp [accepted]
              have len3 : (accepted s3.2).length = (accepted s.2).length + 1 := by rw [acc3]; simp
              have snd3 : (sends s3.2 : Int) = sends s.2 + 1 := by rw [k6, sends_append, Int.natCast_add, snd2]; simp [sends]
              have t3 : Tail 0 s3.2 := by rw [k6]; exact tail_snoc t2 (by omega)
              have g3 : Good a max s3.2 := by
                rw [k6]
                exact good_snoc g2 (by rw [← k6]; exact t3) (by omega) (fun f c he => by cases he)
              have log3 : s3.2 = s1.2 ++ [.received RECV_OK cur', .purged pr] := by rw [k6, k4]; simp
              have few3 : (accepted s3.2).length ≤ 1 ∨ ((accepted s3.2).length : Int) ≤ mf := by rw [len3]; exact few1
              have tot3 : (sends s3.2 : Int) ≤ ((accepted s.2 ++ [cur']).length : Int) * (max + 1) := by
                rw [List.length_append, List.length_singleton, mul_succ_int, ← hcount, snd3]
                omega
              cases hp : frameDataParse cur' x with
              | error e => simp only [hp] at h; cases h
              | ok q =>
                obtain ⟨pc, x'⟩ := q
                simp only [hp] at h
                obtain ⟨m1, m2, m3⟩ := parse_more cur' x x' pc hds hp
                obtain ⟨y', hy⟩ := parse_indep cur' x FrameData.new pc x' hp
                by_cases hpc : pc = -1
                · rw [if_pos hpc] at h
                  cases h
                  refine ⟨g3, tot3, few3, ?_⟩
                  show Ending max mf 1 (accepted s.2 ++ [cur']) s3.2
                  rw [← acc3, log3]
                  exact .unreadable _ _ _ y' (by rw [hy, hpc])
                · rw [if_neg hpc] at h
                  have hpc0 : pc = 0 := by
                    rcases frameDataParse_code _ _ _ _ hp with h | h
                    · exact h
                    · exact absurd h hpc
                  by_cases hmore : x'.type = DATA_VARIABLE ∧ x'.var.more ≠ 0 ∧ mf > 0 ∧ count + 1 < mf
                  · rw [dif_pos hmore] at h
                    cases hfree : (p.parse cur' x').free with
                    | error e => simp only [hfree] at h; cases h
                    | ok p' =>
                      simp only [hfree] at h
                      refine sr_inv o ho a max mf s3 _ _ _ _ _ _ _ out h ?_ (by decide)
                      refine ⟨g3, t3, ⟨s3.2, [], by simp, rfl, rfl⟩, ?_, acc3.symm, by rw [len3]; omega, ?_, ?_, by omega, by omega, .inr (by omega)⟩
                      · rw [len3]; exact flip_request hreq
                      · intro g hg
                        rw [acc3, List.getLast?_append] at hg
                        simp at hg
                        subst hg
                        exact m1 hpc ⟨hmore.1, hmore.2.1⟩
                      · have : (count + 1) * (max + 1) = count * (max + 1) + (max + 1) := by rw [Int.add_mul]; simp
                        rw [this, snd3]
                        omega
                  · rw [dif_neg hmore] at h
                    cases hfree : (p.parse cur' x').free with
                    | error e => simp only [hfree] at h; cases h
                    | ok p' =>
                      simp only [hfree] at h
                      cases h
                      refine ⟨g3, tot3, few3, ?_⟩
                      show Ending max mf 0 (accepted s.2 ++ [cur']) s3.2
                      have hlim : MoreFollows cur' → mf ≤ (accepted s3.2).length := by
                        intro hM
                        have := m2 hpc hM
                        rw [len3]
                        by_cases h0 : mf > 0
                        · have : ¬ count + 1 < mf := fun hlt => hmore ⟨this.1, this.2, h0, hlt⟩
                          omega
                        · omega
                      rw [← acc3]
                      rw [log3] at hlim ⊢
                      exact .done _ _ _ y' (by rw [hy, hpc0]) hlim
          · rw [if_neg hok] at h
            have acc2 : accepted s2.2 = accepted s.2 := by rw [k4, accepted_append, acc1]; simp [accepted, hok]
            have t2 : Tail (retry + 1) s2.2 := by
              rw [k4]
              have := tail_snoc (e := .received c cur') t1 (by omega)
              simpa [sends] using this
            have g2 : Good a max s2.2 := by
              rw [k4]
              exact good_snoc g1 (by rw [← k4]; exact t2) (by omega) (fun f c he => by cases he)
            obtain ⟨pre, seg, e0, e1, e2⟩ := hi.streak
            have streak2 : ∃ pre seg, s2.2 = pre ++ seg ∧ accepted seg = [] ∧ (sends seg : Int) = retry + 1 := by
              refine ⟨pre, seg ++ [.sent req r, .received c cur'], by rw [k4, k2, e0]; simp, ?_, ?_⟩
              · rw [accepted_append, e1]; simp [accepted, hok]
              · rw [sends_append, Int.natCast_add, e2]; simp [sends]
            by_cases hto : c = RECV_TIMEOUT
            · rw [if_pos hto] at h
              refine sr_inv o ho a max mf s2 _ _ _ _ _ _ _ out h ?_ hds
              exact ⟨g2, t2, streak2, by rw [acc2]; exact hreq, acc2.symm, by rw [acc2]; exact hcount, by rw [acc2]; exact hi.last,
                by rw [snd2]; omega, by omega, by omega, by rw [acc2]; exact hi.room⟩
            · rw [if_neg hto] at h
              by_cases hinv : c = RECV_INVALID
              · rw [if_pos hinv] at h
                cases hpurge : o.logged.purge s2 with
                | error e => rw [hpurge] at h; cases h
                | ok q =>
                  obtain ⟨pr, s3⟩ := q
                  rw [hpurge] at h
                  obtain ⟨_, k6⟩ := logged_purge hpurge
                  have acc3 : accepted s3.2 = accepted s.2 := by rw [k6, accepted_append, acc2]; simp [accepted]
                  have snd3 : (sends s3.2 : Int) = sends s.2 + 1 := by rw [k6, sends_append, Int.natCast_add, snd2]; simp [sends]
                  have t3 : Tail (retry + 1) s3.2 := by
                    rw [k6]
                    have := tail_snoc (e := .purged pr) t2 (by omega)
                    simpa [sends] using this
                  have g3 : Good a max s3.2 := by
                    rw [k6]
                    exact good_snoc g2 (by rw [← k6]; exact t3) (by omega) (fun f c he => by cases he)
                  obtain ⟨pre', seg', b0, b1, b2⟩ := streak2
                  refine sr_inv o ho a max mf s3 _ _ _ _ _ _ _ out h ?_ hds
                  exact ⟨g3, t3, ⟨pre', seg' ++ [.purged pr], by rw [k6, b0]; simp, by rw [accepted_append, b1]; simp [accepted],
                      by rw [sends_append, Int.natCast_add, b2]; simp [sends]⟩,
                    by rw [acc3]; exact hreq, acc3.symm, by rw [acc3]; exact hcount, by rw [acc3]; exact hi.last,
                    by rw [snd3]; omega, by omega, by omega, by rw [acc3]; exact hi.room⟩
              · rw [if_neg hinv] at h
                cases h
                refine ⟨g2, ?_, by simp only [acc2]; exact few0, ?_⟩
                · simp only [List.length_append, List.length_singleton, mul_succ_int, ← hcount]
                  rw [snd2]
                  omega
                · show Ending max mf 1 (accepted s.2 ++ [cur']) s2.2
                  rw [← acc2, k4]
                  exact .linkFailed _ _ _ hok hto hinv
termination_by ((mf - count).toNat, (max + 1 - retry).toNat)
decreasing_by
  · apply Prod.Lex.left; omega
  · apply Prod.Lex.right; omega
  · apply Prod.Lex.right; omega

end Mbus
