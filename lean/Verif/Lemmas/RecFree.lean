import Verif.Lemmas.Sendrecv
namespace Mbus
open Spec

theorem fixedParse_ok (f : Frame) (x : FixedData) : ∃ q, fixedParse f x = .ok q := by
  unfold fixedParse
  split
  · exact ⟨_, rfl⟩
  · have : ∀ i, i < 252 → ∃ b, f.data.rd i = .ok b := by
      intro i hi
      exact ⟨_, rd_ok (by simp; omega)⟩
    obtain ⟨_, h0⟩ := this 0 (by omega)
    obtain ⟨_, h1⟩ := this 1 (by omega)
    obtain ⟨_, h2⟩ := this 2 (by omega)
    obtain ⟨_, h3⟩ := this 3 (by omega)
    obtain ⟨_, h4⟩ := this 4 (by omega)
    obtain ⟨_, h5⟩ := this 5 (by omega)
    obtain ⟨_, h6⟩ := this 6 (by omega)
    obtain ⟨_, h7⟩ := this 7 (by omega)
    obtain ⟨_, h8⟩ := this 8 (by omega)
    obtain ⟨_, h9⟩ := this 9 (by omega)
    obtain ⟨_, h10⟩ := this 10 (by omega)
    obtain ⟨_, h11⟩ := this 11 (by omega)
    obtain ⟨_, h12⟩ := this 12 (by omega)
    obtain ⟨_, h13⟩ := this 13 (by omega)
    obtain ⟨_, h14⟩ := this 14 (by omega)
    obtain ⟨_, h15⟩ := this 15 (by omega)
    simp only [h0, h1, h2, h3, h4, h5, h6, h7, h8, h9, h10, h11, h12, h13, h14, h15, ok_bind]
    exact ⟨_, rfl⟩

theorem frameDataParse_fault (f : Frame) (x : FrameData) (hs : f.dataSize ≤ 252) (e : Fault) (h : frameDataParse f x = .error e) :
    ParserFault e := by
  have hx := frameDataParse_cases f x
  by_cases hd : f.control &&& 0x40 = 0
  · by_cases h72 : f.ci = 0x72
    · rw [hx.2.2 hd h72] at h
      by_cases h0 : f.dataSize = 0
      · rw [if_pos h0] at h; cases h
      · rw [if_neg h0] at h
        cases hv : variableParse f x.var with
        | ok q => rw [hv] at h; cases h
        | error e' =>
          rw [hv] at h
          cases h
          rcases variableParse_fault f _ hs _ hv with h | h | h
          · exact .inl h.1
          · exact .inr (.inl h.1)
          · exact .inr (.inr h.1)
    · by_cases h73 : f.ci = 0x73
      · rw [hx.2.1 hd h73] at h
        by_cases h0 : f.dataSize = 0
        · rw [if_pos h0] at h; cases h
        · rw [if_neg h0] at h
          obtain ⟨q, hq⟩ := fixedParse_ok f x.fix
          rw [hq] at h; cases h
      · by_cases h70 : f.ci = 0x70
        · rw [frameDataParse_error f x hd h70] at h; cases h
        · have hd' : f.control &&& MASK_DIR = MASK_DIR_S2M := hd
          unfold frameDataParse at h
          rw [if_pos hd', if_neg h70, if_neg h73, if_neg h72] at h
          cases h
  · rw [hx.1 hd] at h; cases h

/-- parsing a variable telegram successfully leaves no dangling pointer -/
theorem parse_pointer (p : RecPtr) (f : Frame) (x x' : FrameData) (hci : f.ci = 0x72) (h : frameDataParse f x = .ok (0, x')) :
    p.parse f x' = if x'.var.records = [] then .null else .live := by
  have hx := frameDataParse_cases f x
  unfold RecPtr.parse
  by_cases hd : f.control &&& 0x40 = 0
  · rw [hx.2.2 hd hci] at h
    by_cases h0 : f.dataSize = 0
    · rw [if_pos h0] at h; cases h
    · rw [if_neg h0] at h
      have h12 : 12 ≤ f.dataSize := by
        by_cases h12 : f.dataSize < 12
        · rw [variableParse_short f _ h12] at h; cases h
        · omega
      rw [if_pos ⟨hd, hci, h12⟩]
  · rw [hx.1 hd] at h; cases h

set_option linter.unusedVariables false in
theorem sr_safe {σ : Type} (o : Ops σ) (V : σ → Prop) (max mf : Int) (ho : Orderly o V mf) (s : σ) (req : Frame)
    (done : List Frame) (cur : Frame) (x : FrameData) (p : RecPtr) (retry count : Int)
    (hcount : 0 ≤ count) (hreq : req.type = 2) (hcur : cur.dataSize ≤ 252) (hp : p = .null ∨ (p = .freed ∧ V s)) :
    (∀ e, sendrecvLoop o max mf s req done cur x p retry count = .error e → ParserFault e) ∧
    (∀ out, sendrecvLoop o max mf s req done cur x p retry count = .ok out → out.code = 0 → out.recs ≠ .live) := by
  rw [sendrecvLoop]
  by_cases hr : retry > max
  · rw [dif_pos hr]
    exact ⟨fun e h => (by cases h), fun out h hc => by cases h; exact absurd hc (by simp)⟩
  rw [dif_neg hr]
  obtain ⟨r, req', s1, h1, hreq', hv1⟩ := ho.send s req hreq
  rw [h1]
  simp only
  by_cases hm1 : r = -1
  · rw [if_pos hm1]
    exact ⟨fun e h => (by cases h), fun out h hc => by cases h; exact absurd hc (by simp)⟩
  rw [if_neg hm1]
  obtain ⟨c, cur', s2, h2, hcur', hv2, hok2⟩ := ho.recv s1 cur hcur
  rw [h2]
  simp only
  by_cases hok : c = RECV_OK
  · rw [if_pos hok]
    obtain ⟨pr, s3, h3, hv3⟩ := ho.purge s2
    rw [h3]
    simp only
    cases hpz : frameDataParse cur' x with
    | error e =>
      simp only
      exact ⟨fun e' h => (by cases h; exact frameDataParse_fault cur' x hcur' e hpz), fun out h => by cases h⟩
    | ok q =>
      obtain ⟨pc, x'⟩ := q
      simp only
      by_cases hpc : pc = -1
      · rw [if_pos hpc]
        exact ⟨fun e h => (by cases h), fun out h hc => by cases h; exact absurd hc (by simp)⟩
      rw [if_neg hpc]
      have hpc0 : pc = 0 := by
        rcases frameDataParse_code _ _ _ _ hpz with h | h
        · exact h
        · exact absurd h hpc
      subst hpc0
      have hptr : ∃ p', (p.parse cur' x').free = .ok p' ∧ (p' = .null ∨ p' = .freed) := by
        by_cases h72 : cur'.ci = 0x72
        · rw [parse_pointer p cur' x x' h72 hpz]
          split
          · exact ⟨.null, rfl, .inl rfl⟩
          · exact ⟨.freed, rfl, .inr rfl⟩
        · have hnull : p = .null := by
            rcases hp with h | ⟨_, h⟩
            · exact h
            · exact absurd ((hok2 hok).1 (hv1 h)) h72
          have : p.parse cur' x' = p := by
            unfold RecPtr.parse
            rw [if_neg (fun h => h72 h.2.1)]
          rw [this, hnull]
          exact ⟨.null, rfl, .inl rfl⟩
      obtain ⟨p', hf, hp'⟩ := hptr
      have hne : p' ≠ .live := by rcases hp' with h | h <;> (rw [h]; simp)
      by_cases hmore : x'.type = DATA_VARIABLE ∧ x'.var.more ≠ 0 ∧ mf > 0 ∧ count + 1 < mf
      · rw [dif_pos hmore]
        simp only [hf]
        refine sr_safe o V max mf ho s3 _ _ _ _ _ _ _ (by omega) hreq' (by decide) ?_
        have hM := (parse_more cur' x x' 0 hcur' hpz).1 hpc ⟨hmore.1, hmore.2.1⟩
        rcases hp' with h | h
        · exact .inl h
        · exact .inr ⟨h, hv3 ((hok2 hok).2 (by omega) hM)⟩
      · rw [dif_neg hmore]
        simp only [hf]
        exact ⟨fun e h => (by cases h), fun out h _ => by cases h; exact hne⟩
  · rw [if_neg hok]
    have hp2 : p = .null ∨ (p = .freed ∧ V s2) := by
      rcases hp with h | ⟨h, hv⟩
      · exact .inl h
      · exact .inr ⟨h, hv2 (hv1 hv)⟩
    by_cases hto : c = RECV_TIMEOUT
    · rw [if_pos hto]
      exact sr_safe o V max mf ho s2 _ _ _ _ _ _ _ hcount hreq' hcur' hp2
    · rw [if_neg hto]
      by_cases hinv : c = RECV_INVALID
      · rw [if_pos hinv]
        obtain ⟨pr, s3, h3, hv3⟩ := ho.purge s2
        rw [h3]
        simp only
        refine sr_safe o V max mf ho s3 _ _ _ _ _ _ _ hcount hreq' hcur' ?_
        rcases hp2 with h | ⟨h, hv⟩
        · exact .inl h
        · exact .inr ⟨h, hv3 hv⟩
      · rw [if_neg hinv]
        exact ⟨fun e h => (by cases h), fun out h hc => by cases h; exact absurd hc (by simp)⟩
termination_by ((mf - count).toNat, (max + 1 - retry).toNat)
decreasing_by
  · apply Prod.Lex.left; omega
  · apply Prod.Lex.right; omega
  · apply Prod.Lex.right; omega

end Mbus
