import Verif.Lemmas.ScanLog
/- what a probe does, from its log -/
namespace Mbus
open Spec

section
variable {σ : Type} (o : Ops σ)

theorem probeSelected_log (s : σ) (log : List Act) (r : Int) (a : Option (List Byte)) (s' : σ × List Act)
    (h : probeSelected o.logged (s, log) = .ok (r, a, s')) : ∃ l, s'.2 = log ++ l ∧ Identify r a l := by
  unfold probeSelected at h
  rw [bind_eq_ok] at h
  obtain ⟨⟨c0, s1, log1⟩, h1, h⟩ := h
  rcases request_log o s log _ _ _ h1 with ⟨hm, _⟩ | ⟨_, f, c, hf, hlog, hc⟩
  · exact absurd (by decide) hm
  simp only at hlog h
  subst hlog
  have hf : Carries f (.short 0x5B 0xFD) := hf
  rcases hc with ⟨rfl, rfl⟩ | ⟨hc, rfl⟩
  · rw [if_pos rfl] at h
    cases h
    exact ⟨_, rfl, .sendFailed f hf⟩
  rw [if_neg (by decide), logged_recv_eq] at h
  cases hr : o.recv s1 Frame.zero with
  | error e => rw [hr] at h; cases h
  | ok q =>
    obtain ⟨rc, g, s2⟩ := q
    rw [hr] at h
    simp only [ok_bind] at h
    by_cases ht : rc = RECV_TIMEOUT
    · rw [if_pos ht] at h
      cases h
      subst ht
      exact ⟨[.sent f c, .received RECV_TIMEOUT g], by simp, .silence f c g hf hc⟩
    rw [if_neg ht] at h
    by_cases hi : rc = RECV_INVALID
    · rw [if_pos hi, logged_purge_eq] at h
      cases hp : o.purge s2 with
      | error e => rw [hp] at h; cases h
      | ok q =>
        rw [hp] at h
        cases h
        subst hi
        exact ⟨[.sent f c, .received RECV_INVALID g, .purged q.1], by simp, .garbage f c g _ hf hc⟩
    rw [if_neg hi, logged_purge_eq] at h
    cases hp : o.purge s2 with
    | error e => rw [hp] at h; cases h
    | ok q =>
      obtain ⟨p, s3⟩ := q
      rw [hp] at h
      simp only [ok_bind] at h
      by_cases hp0 : p ≠ 0
      · rw [if_pos hp0] at h
        cases h
        exact ⟨[.sent f c, .received rc g, .purged p], by simp, .crowd f c rc g p hf hc ht hi hp0⟩
      rw [if_neg hp0] at h
      have hp0 : p = 0 := Decidable.of_not_not hp0
      subst hp0
      by_cases hl : g.type = TYPE_LONG
      · rw [if_pos hl] at h
        cases hsec : getSecondaryAddress g with
        | error e => rw [hsec] at h; cases h
        | ok x =>
          rw [hsec, ok_bind] at h
          cases x with
          | none =>
            cases h
            exact ⟨[.sent f c, .received rc g, .purged 0], by simp, .other f c rc g hf hc ht hi (fun _ => hsec)⟩
          | some ad =>
            cases h
            refine ⟨[.sent f c, .received rc g, .purged 0, .found (ad.take 16) g], ?_, .single f c rc g ad hf hc ht hi hl hsec⟩
            show log ++ [Act.sent f c] ++ [Act.received rc g] ++ [Act.purged 0] ++ [Act.found (ad.take 16) g] = _
            simp
      · rw [if_neg hl] at h
        cases h
        exact ⟨[.sent f c, .received rc g, .purged 0], by simp, .other f c rc g hf hc ht hi (fun h => absurd h hl)⟩

theorem probeLoop_log (m : List Byte) (n : Nat) : ∀ (ret : Int) (s : σ) (log : List Act) (r : Int) (a : Option (List Byte)) (s' : σ × List Act),
    (n = 0 → ret = 0) → probeLoop o.logged (s, log) m ret n = .ok (r, a, s') → ∃ l, s'.2 = log ++ l ∧ Probing m n r a l := by
  induction n with
  | zero =>
    intro ret s log r a s' hret h
    cases h
    rw [hret rfl]
    exact ⟨[], by simp, .exhausted⟩
  | succ n ih =>
    intro ret s log r a s' _ h
    rw [probeLoop, bind_eq_ok] at h
    obtain ⟨⟨r1, s1, log1⟩, h1, h⟩ := h
    obtain ⟨l, hl, hsel, _⟩ := select_log o s log m _ _ h1
    simp only at hl h
    subst hl
    by_cases hs : r1 = PROBE_SINGLE
    · rw [if_pos hs] at h
      obtain ⟨l', e1, e2⟩ := probeSelected_log o _ _ _ _ _ h
      subst hs
      exact ⟨l ++ l', by rw [e1, List.append_assoc], .selected n r a l l' hsel e2⟩
    rw [if_neg hs] at h
    by_cases he : r1 = PROBE_ERROR ∨ r1 = PROBE_COLLISION
    · rw [if_pos he] at h
      cases h
      exact ⟨l, rfl, .decided n _ l he hsel⟩
    rw [if_neg he] at h
    have hr1 : r1 = 0 := by
      cases hsel with
      | malformed => exact absurd (.inl rfl) he
      | sendFailed => exact absurd (.inl rfl) he
      | silence => rfl
      | garbage => exact absurd (.inr rfl) he
      | crowd => exact absurd (.inr rfl) he
      | single => exact absurd rfl hs
      | other => rfl
    subst hr1
    obtain ⟨l', e1, e2⟩ := ih 0 s1 _ r a s' (fun _ => rfl) h
    exact ⟨l ++ l', by rw [e1, List.append_assoc], .again n r a l l' hsel e2⟩

theorem probe_log (st : Settings) (m : List Byte) (hl : m.length = 16) (s : σ) (log : List Act) (r : Int) (a : Option (List Byte)) (s' : σ × List Act)
    (h : probeSecondary o.logged st (s, log) m = .ok (r, a, s')) : ∃ l, s'.2 = log ++ l ∧ Probing m (st.maxSearchRetry + 1).toNat r a l := by
  unfold probeSecondary at h
  rw [if_neg (by omega)] at h
  exact probeLoop_log o m _ 0 s log r a s' (fun _ => rfl) h

end

/-- no progress report -/
def NoProgress (l : List Act) : Prop := ∀ a ∈ l, ∀ m, a ≠ .progress m

theorem noProgress_append {l l' : List Act} (h : NoProgress l) (h' : NoProgress l') : NoProgress (l ++ l') := by
  intro a ha
  rcases List.mem_append.mp ha with h1 | h1
  · exact h a h1
  · exact h' a h1

theorem selection_quiet {m : List Byte} {r : Int} {l : List Act} (h : Selection m r l) : NoProgress l := by
  cases h <;> intro a ha m hm <;> simp_all

theorem identify_quiet {r : Int} {a : Option (List Byte)} {l : List Act} (h : Identify r a l) : NoProgress l := by
  cases h <;> intro a ha m hm <;> simp_all

theorem probing_quiet {m : List Byte} {n : Nat} {r : Int} {a : Option (List Byte)} {l : List Act} (h : Probing m n r a l) : NoProgress l := by
  induction h with
  | exhausted => intro a ha; simp at ha
  | decided n r l _ h => exact selection_quiet h
  | again n r a l l' h _ ih => exact noProgress_append (selection_quiet h) ih
  | selected n r a l l' h h' => exact noProgress_append (selection_quiet h) (identify_quiet h')

theorem collided_purged (pre : List Act) (r : Int) : Collided (pre ++ [.purged r]) ↔ (r ≠ 0 ∨ ∃ pre' g, pre = pre' ++ [.received RECV_INVALID g]) := by
  constructor
  · rintro ⟨pre', r', h1, h2⟩
    obtain ⟨h3, h4⟩ := List.append_inj' h1 rfl
    subst h3
    cases h4
    exact h2
  · intro h; exact ⟨pre, r, rfl, h⟩

theorem not_collided (pre : List Act) (a : Act) (h : ∀ r, a ≠ .purged r) : ¬ Collided (pre ++ [a]) := by
  rintro ⟨pre', r', h1, _⟩
  obtain ⟨_, h4⟩ := List.append_inj' h1 rfl
  cases h4
  exact h r' rfl

theorem not_collided_nil : ¬ Collided [] := by
  rintro ⟨pre, r, h, _⟩
  simp at h

theorem invalid_last (pre pre' : List Act) (c : Int) (g g' : Frame) (h : pre ++ [Act.received c g] = pre' ++ [.received RECV_INVALID g']) : c = RECV_INVALID := by
  obtain ⟨_, h⟩ := List.append_inj' h rfl
  cases h
  rfl

theorem selection_collided {m : List Byte} {r : Int} {l : List Act} (h : Selection m r l) (pre : List Act) : r = 2 ↔ Collided (pre ++ l) ∧ l ≠ [] := by
  cases h with
  | malformed => exact ⟨fun h => absurd h (by decide), fun h => absurd rfl h.2⟩
  | sendFailed f => exact ⟨fun h => absurd h (by decide), fun h => absurd h.1 (not_collided _ _ (by simp))⟩
  | silence f c g =>
    refine ⟨fun h => absurd h (by decide), fun h => absurd h.1 ?_⟩
    rw [show pre ++ [Act.sent f c, .received RECV_TIMEOUT g] = (pre ++ [.sent f c]) ++ [.received RECV_TIMEOUT g] by simp]
    exact not_collided _ _ (by simp)
  | garbage f c g r =>
    refine ⟨fun _ => ⟨?_, by simp⟩, fun _ => rfl⟩
    rw [show pre ++ [Act.sent f c, .received RECV_INVALID g, .purged r] = (pre ++ [.sent f c, .received RECV_INVALID g]) ++ [.purged r] by simp, collided_purged]
    exact .inr ⟨pre ++ [.sent f c], g, by simp⟩
  | crowd f c rc g r _ _ _ _ _ _ hr =>
    refine ⟨fun _ => ⟨?_, by simp⟩, fun _ => rfl⟩
    rw [show pre ++ [Act.sent f c, .received rc g, .purged r] = (pre ++ [.sent f c, .received rc g]) ++ [.purged r] by simp, collided_purged]
    exact .inl hr
  | single f c rc g _ _ _ _ hi _ =>
    refine ⟨fun h => absurd h (by decide), fun h => absurd h.1 ?_⟩
    rw [show pre ++ [Act.sent f c, .received rc g, .purged 0] = (pre ++ [.sent f c, .received rc g]) ++ [.purged 0] by simp, collided_purged]
    rintro (h | ⟨pre', g', h⟩)
    · exact h rfl
    · rw [show pre ++ [Act.sent f c, .received rc g] = (pre ++ [.sent f c]) ++ [.received rc g] by simp] at h
      exact hi (invalid_last _ _ _ _ _ h)
  | other f c rc g _ _ _ _ hi _ =>
    refine ⟨fun h => absurd h (by decide), fun h => absurd h.1 ?_⟩
    rw [show pre ++ [Act.sent f c, .received rc g] = (pre ++ [.sent f c]) ++ [.received rc g] by simp]
    exact not_collided _ _ (by simp)

theorem identify_collided {r : Int} {a : Option (List Byte)} {l : List Act} (h : Identify r a l) (pre : List Act) : r = 2 ↔ Collided (pre ++ l) := by
  cases h with
  | sendFailed f => exact ⟨fun h => absurd h (by decide), fun h => absurd h (not_collided _ _ (by simp))⟩
  | silence f c g =>
    refine ⟨fun h => absurd h (by decide), fun h => absurd h ?_⟩
    rw [show pre ++ [Act.sent f c, .received RECV_TIMEOUT g] = (pre ++ [.sent f c]) ++ [.received RECV_TIMEOUT g] by simp]
    exact not_collided _ _ (by simp)
  | garbage f c g r =>
    refine ⟨fun _ => ?_, fun _ => rfl⟩
    rw [show pre ++ [Act.sent f c, .received RECV_INVALID g, .purged r] = (pre ++ [.sent f c, .received RECV_INVALID g]) ++ [.purged r] by simp, collided_purged]
    exact .inr ⟨pre ++ [.sent f c], g, by simp⟩
  | crowd f c rc g r _ _ _ _ hr =>
    refine ⟨fun _ => ?_, fun _ => rfl⟩
    rw [show pre ++ [Act.sent f c, .received rc g, .purged r] = (pre ++ [.sent f c, .received rc g]) ++ [.purged r] by simp, collided_purged]
    exact .inl hr
  | single f c rc g ad =>
    refine ⟨fun h => absurd h (by decide), fun h => absurd h ?_⟩
    rw [show pre ++ [Act.sent f c, .received rc g, .purged 0, .found (ad.take 16) g] = (pre ++ [.sent f c, .received rc g, .purged 0]) ++ [.found (ad.take 16) g] by simp]
    exact not_collided _ _ (by simp)
  | other f c rc g _ _ _ hi =>
    refine ⟨fun h => absurd h (by decide), fun h => absurd h ?_⟩
    rw [show pre ++ [Act.sent f c, .received rc g, .purged 0] = (pre ++ [.sent f c, .received rc g]) ++ [.purged 0] by simp, collided_purged]
    rintro (h | ⟨pre', g', h⟩)
    · exact h rfl
    · rw [show pre ++ [Act.sent f c, .received rc g] = (pre ++ [.sent f c]) ++ [.received rc g] by simp] at h
      exact hi (invalid_last _ _ _ _ _ h)

/-- a probe says COLLISION exactly if the last thing that happened is a collision -/
theorem probing_collided {m : List Byte} {n : Nat} {r : Int} {a : Option (List Byte)} {l : List Act} (h : Probing m n r a l) :
    r = 2 ↔ Collided l := by
  have key : ∀ pre : List Act, (r = 2 ↔ Collided (pre ++ l) ∧ l ≠ []) := by
    induction h with
    | exhausted => intro pre; exact ⟨fun h => absurd h (by decide), fun h => absurd rfl h.2⟩
    | decided n r l _ h => intro pre; exact selection_collided h pre
    | again n r a l l' hs hp ih =>
      intro pre
      have h0 := ih (pre ++ l)
      rw [List.append_assoc] at h0
      by_cases hl' : l' = []
      · subst hl'
        have hs' := selection_collided hs pre
        rw [List.append_nil]
        rw [h0, ← hs']
        simp
      · rw [h0]
        simp [hl']
    | selected n r a l l' hs hi =>
      intro pre
      have := identify_collided hi (pre ++ l)
      rw [this, List.append_assoc]
      have hne : l' ≠ [] := by cases hi <;> simp
      simp [hne]
  have := key []
  rw [this]
  simp only [List.nil_append]
  constructor
  · exact fun h => h.1
  · intro h
    refine ⟨h, ?_⟩
    rintro rfl
    exact not_collided_nil h

end Mbus
