import Verif.Lemmas.XmlExact
import Verif.Lemmas.XmlForm
/- A cut document is not well-formed. -/
namespace Mbus
open Spec

/-- Number of bytes before the first `</MB`. -/
def beforeEnd : List Byte → Nat
  | [] => 0
  | c :: t => if [60, 47, 77, 66] <+: c :: t then 0 else beforeEnd t + 1

theorem beforeEnd_skip (s t : List Byte) (h : (60 : Byte) ∉ s) : beforeEnd (s ++ t) = s.length + beforeEnd t := by
  induction s with
  | nil => simp
  | cons c s ih =>
    have h1 : c ≠ 60 := fun e => h (by rw [e]; exact List.mem_cons_self ..)
    have h2 : (60 : Byte) ∉ s := fun e => h (List.mem_cons_of_mem _ e)
    rw [List.cons_append, beforeEnd, if_neg, ih h2, List.length_cons]
    · omega
    · intro hp
      rw [List.cons_prefix_cons] at hp
      exact h1 hp.1.symm

theorem beforeEnd_tag (s t : List Byte) (h : ¬ [47, 77, 66] <+: s ++ t) (h0 : (60 : Byte) ∉ s) : beforeEnd (60 :: (s ++ t)) = 1 + s.length + beforeEnd t := by
  rw [beforeEnd, if_neg, beforeEnd_skip s t h0]
  · omega
  · intro hp
    rw [List.cons_prefix_cons] at hp
    exact h hp.2

theorem beforeEnd_le (q r : List Byte) : beforeEnd (q ++ [60, 47, 77, 66] ++ r) ≤ q.length := by
  induction q with
  | nil =>
    show beforeEnd (60 :: _) ≤ _
    rw [beforeEnd, if_pos]
    · simp
    · exact ⟨r, rfl⟩
  | cons c q ih =>
    show beforeEnd (c :: (q ++ [60, 47, 77, 66] ++ r)) ≤ _
    rw [beforeEnd]
    split
    · omega
    · simp only [List.length_cons]; omega

/-- Does not begin like the root element. -/
def NoRoot (n : List Byte) : Prop := ¬ [77, 66] <+: n
instance (n : List Byte) : Decidable (NoRoot n) := by unfold NoRoot; infer_instance

theorem name_clean {n : List Byte} (h : IsName n) : (60 : Byte) ∉ n ∧ (0 : Byte) ∉ n ∧ ∃ c s, n = c :: s ∧ c ≠ 47 := by
  obtain ⟨h1, h2⟩ := h
  have key : ∀ c : Byte, Letter c → c ≠ 60 ∧ c ≠ 47 ∧ c ≠ 0 ∧ c ≠ 62 := forall_byte (by decide +kernel)
  refine ⟨fun h => (key _ (h2 _ h)).1 rfl, fun h => (key _ (h2 _ h)).2.2.1 rfl, ?_⟩
  cases n with
  | nil => exact absurd rfl h1
  | cons c s => exact ⟨c, s, rfl, (key c (h2 c (List.mem_cons_self ..))).2.1⟩

theorem charData_clean {t : List Byte} (h : CharData t) : (60 : Byte) ∉ t ∧ (0 : Byte) ∉ t := by
  induction h with
  | nil => exact ⟨by simp, by simp⟩
  | @char c t h1 _ h3 _ ih =>
    refine ⟨fun h => ?_, fun h => ?_⟩
    · rcases List.mem_cons.mp h with h | h
      · exact h1 h.symm
      · exact ih.1 h
    · rcases List.mem_cons.mp h with h | h
      · subst h; revert h3; decide
      · exact ih.2 h
  | @entity e t he _ ih =>
    have key : ∀ e ∈ [cs! "&amp;", cs! "&lt;", cs! "&gt;", cs! "&quot;"], (60 : Byte) ∉ e ∧ (0 : Byte) ∉ e := by decide
    have := key e he
    exact ⟨fun h => (List.mem_append.mp h).elim this.1 ih.1, fun h => (List.mem_append.mp h).elim this.2 ih.2⟩

theorem not_close {n : List Byte} (h : IsName n) (s : List Byte) : ¬ [47, 77, 66] <+: n ++ s := by
  obtain ⟨_, _, c, r, rfl, hc⟩ := name_clean h
  intro hp
  rw [List.cons_append, List.cons_prefix_cons] at hp
  exact hc hp.1.symm

theorem not_root {n : List Byte} (h : IsName n) (hr : NoRoot n) (s : List Byte) : ¬ [77, 66] <+: n ++ (62 :: s) := by
  obtain ⟨_, _, c, r, rfl, hc⟩ := name_clean h
  intro hp
  unfold NoRoot at hr
  cases r with
  | nil =>
    rw [List.cons_append, List.cons_prefix_cons] at hp
    have := hp.2
    rw [List.nil_append, List.cons_prefix_cons] at this
    exact absurd this.1 (by decide)
  | cons d r =>
    apply hr
    rw [List.cons_append, List.cons_append, List.cons_prefix_cons, List.cons_prefix_cons] at hp
    rw [List.cons_prefix_cons, List.cons_prefix_cons]
    exact ⟨hp.1, hp.2.1, List.nil_prefix⟩

theorem beforeEnd_leaf (l : List Byte × List Byte) (h : IsName l.1 ∧ CharData l.2) (hr : NoRoot l.1) (t : List Byte) :
    beforeEnd (leaf l ++ t) = (leaf l).length + beforeEnd t := by
  obtain ⟨n, x⟩ := l
  dsimp only at h hr
  have h1 := (name_clean h.1).1
  have h2 := (charData_clean h.2).1
  have e : leaf (n, x) ++ t = cs! "        " ++ (60 :: ((n ++ cs! ">" ++ x) ++ (60 :: ((47 :: (n ++ cs! ">\n")) ++ t)))) := by simp [leaf]
  rw [e, beforeEnd_skip _ _ (by decide), beforeEnd_tag, beforeEnd_tag]
  · simp [leaf]
    omega
  · intro hp
    rw [List.cons_append, List.cons_prefix_cons] at hp
    have := not_root h.1 hr (10 :: t)
    exact this (by simpa using hp.2)
  · simp [h1]
  · have := not_close h.1 (cs! ">" ++ x ++ (60 :: ((47 :: (n ++ cs! ">\n")) ++ t)))
    simpa using this
  · simp [h1, h2]

theorem beforeEnd_leaves (ls : List (List Byte × List Byte)) (h : ∀ l ∈ ls, IsName l.1 ∧ CharData l.2) (hr : ∀ l ∈ ls, NoRoot l.1) (t : List Byte) :
    beforeEnd (ls.flatMap leaf ++ t) = (ls.flatMap leaf).length + beforeEnd t := by
  induction ls with
  | nil => simp
  | cons l ls ih =>
    rw [List.flatMap_cons, List.append_assoc, beforeEnd_leaf l (h l (List.mem_cons_self ..)) (hr l (List.mem_cons_self ..)),
      ih (fun x hx => h x (List.mem_cons_of_mem _ hx)) (fun x hx => hr x (List.mem_cons_of_mem _ hx)), List.length_append]
    omega

/-- A group whose names do not begin like the root element. -/
structure GroupIn (g : Group) : Prop extends GroupOk g where
  noRoot : NoRoot g.name ∧ ∀ l ∈ g.leaves, NoRoot l.1

theorem attrs_clean (as : List (List Byte × List Byte)) (h : ∀ a ∈ as, IsName a.1 ∧ CharData a.2 ∧ (34 : Byte) ∉ a.2) :
    (60 : Byte) ∉ as.flatMap attr ∧ (0 : Byte) ∉ as.flatMap attr := by
  induction as with
  | nil => simp
  | cons a as ih =>
    obtain ⟨h1, h2⟩ := ih (fun x hx => h x (List.mem_cons_of_mem _ hx))
    obtain ⟨h3, h4, _⟩ := h a (List.mem_cons_self ..)
    rw [List.flatMap_cons]
    simp [attr, name_clean h3, charData_clean h4, h1, h2]

theorem beforeEnd_group (g : Group) (h : GroupIn g) (t : List Byte) : beforeEnd (g.render ++ t) = g.render.length + beforeEnd t := by
  have h1 := (name_clean h.name).1
  have h2 := (attrs_clean g.attrs h.attrs).1
  have e : g.render ++ t = cs! "    " ++ (60 :: ((g.name ++ g.attrs.flatMap attr ++ cs! ">\n") ++ (g.leaves.flatMap leaf ++
      (cs! "    " ++ (60 :: ((47 :: (g.name ++ cs! ">\n\n")) ++ t)))))) := by simp [Group.render]
  rw [e, beforeEnd_skip _ _ (by decide), beforeEnd_tag, beforeEnd_leaves g.leaves h.leaves h.noRoot.2, beforeEnd_skip _ _ (by decide), beforeEnd_tag]
  · simp only [Group.render, List.length_append, List.length_cons, List.length_nil]
    omega
  · intro hp
    rw [List.cons_append, List.cons_prefix_cons] at hp
    have := not_root h.name h.noRoot.1 (10 :: 10 :: t)
    exact this (by simpa using hp.2)
  · simp [h1]
  · have := not_close h.name (g.attrs.flatMap attr ++ cs! ">\n" ++ (g.leaves.flatMap leaf ++ (cs! "    " ++ (60 :: ((47 :: (g.name ++ cs! ">\n\n")) ++ t)))))
    rw [List.append_assoc, List.append_assoc] at *
    exact this
  · simp [h1, h2]

theorem beforeEnd_groups (gs : List Group) (h : ∀ g ∈ gs, GroupIn g) (t : List Byte) :
    beforeEnd (gs.flatMap Group.render ++ t) = (gs.flatMap Group.render).length + beforeEnd t := by
  induction gs with
  | nil => simp
  | cons g gs ih =>
    rw [List.flatMap_cons, List.append_assoc, beforeEnd_group g (h g (List.mem_cons_self ..)), ih (fun x hx => h x (List.mem_cons_of_mem _ hx)), List.length_append]
    omega

theorem beforeEnd_document (gs : List Group) (h : ∀ g ∈ gs, GroupIn g) : beforeEnd (document gs) + 12 = (document gs).length := by
  have e : document gs = cs! "<?xml version=\"1.0\" encoding=\"ISO-8859-1\"?>\n<MBusData>\n\n" ++ (gs.flatMap Group.render ++ cs! "</MBusData>\n") := by simp [document]
  have h2 : ∀ t, beforeEnd (cs! "<?xml version=\"1.0\" encoding=\"ISO-8859-1\"?>\n<MBusData>\n\n" ++ t) = 56 + beforeEnd t := by
    intro t
    have e : cs! "<?xml version=\"1.0\" encoding=\"ISO-8859-1\"?>\n<MBusData>\n\n" ++ t =
        60 :: (cs! "?xml version=\"1.0\" encoding=\"ISO-8859-1\"?>\n" ++ (60 :: (cs! "MBusData>\n\n" ++ t))) := rfl
    rw [e, beforeEnd_tag _ _ (by intro hp; rw [List.cons_append, List.cons_prefix_cons] at hp; exact absurd hp.1 (by decide)) (by decide),
      beforeEnd_tag _ _ (by intro hp; rw [List.cons_append, List.cons_prefix_cons] at hp; exact absurd hp.1 (by decide)) (by decide)]
    simp only [List.length_cons, List.length_nil]
    omega
  have h3 : beforeEnd (cs! "</MBusData>\n") = 0 := by decide
  rw [e, h2, beforeEnd_groups gs h, h3]
  simp only [List.length_append, List.length_cons, List.length_nil]
  omega

/-- A name before `>` is determined. -/
theorem name_eq {a b : List Byte} (ha : IsName a) (hb : IsName b) {s t : List Byte} (h : a ++ 62 :: s = b ++ 62 :: t) : a = b := by
  have key : ∀ c : Byte, Letter c → c ≠ 62 := forall_byte (by decide +kernel)
  have ka : (62 : Byte) ∉ a := fun h => key _ (ha.2 _ h) rfl
  have kb : (62 : Byte) ∉ b := fun h => key _ (hb.2 _ h) rfl
  clear ha hb
  induction a generalizing b with
  | nil =>
    cases b with
    | nil => rfl
    | cons d b =>
      simp only [List.nil_append, List.cons_append, List.cons.injEq] at h
      exact absurd (by rw [h.1]; exact List.mem_cons_self ..) kb
  | cons c a ih =>
    cases b with
    | nil =>
      simp only [List.nil_append, List.cons_append, List.cons.injEq] at h
      exact absurd (by rw [← h.1]; exact List.mem_cons_self ..) ka
    | cons d b =>
      simp only [List.cons_append, List.cons.injEq] at h
      rw [h.1, ih h.2 (fun h => ka (List.mem_cons_of_mem _ h)) (fun h => kb (List.mem_cons_of_mem _ h))]

/-- No proper beginning of a document is well-formed. -/
theorem cut_notWellFormed (gs : List Group) (h : ∀ g ∈ gs, GroupIn g) (n : Nat) (hn : n < (document gs).length) : ¬ WellFormedXml ((document gs).take n) := by
  rintro ⟨root, body, hroot, _, he⟩
  obtain ⟨z, hz⟩ : (document gs).take n <+: document gs := List.take_prefix _ _
  have h1 := beforeEnd_document gs h
  have hl : ((document gs).take n).length = n := by rw [List.length_take]; omega
  rw [he] at hz hl
  have hr : root = cs! "MBusData" := by
    have e1 : document gs = cs! "<?xml version=\"1.0\" encoding=\"ISO-8859-1\"?>\n<" ++ (cs! "MBusData" ++ 62 :: (cs! "\n\n" ++ gs.flatMap Group.render ++ cs! "</MBusData>\n")) := by
      simp [document]
    rw [e1] at hz
    simp only [List.append_assoc] at hz
    have hz' := List.append_cancel_left hz
    exact name_eq hroot (by decide) (s := body ++ (cs! "</" ++ (root ++ (cs! ">\n" ++ z)))) (t := cs! "\n\n" ++ (gs.flatMap Group.render ++ cs! "</MBusData>\n")) hz'
  subst hr
  generalize hQ : cs! "<?xml version=\"1.0\" encoding=\"ISO-8859-1\"?>\n<" ++ cs! "MBusData" ++ cs! ">" ++ body = Q at *
  have h2 := beforeEnd_le Q (cs! "usData>\n" ++ z)
  have e2 : Q ++ [60, 47, 77, 66] ++ (cs! "usData>\n" ++ z) = document gs := by
    rw [← hz]
    simp
  rw [e2] at h2
  have h3 : Q.length + 12 = n := by
    rw [← hl]
    simp
  omega

theorem group_nonul (g : Group) (h : GroupOk g) : (0 : Byte) ∉ g.render := by
  have h1 := (name_clean h.name).2.1
  have h2 := (attrs_clean g.attrs h.attrs).2
  have h3 : (0 : Byte) ∉ g.leaves.flatMap leaf := by
    intro hm
    obtain ⟨l, hl, hm⟩ := List.mem_flatMap.mp hm
    obtain ⟨g1, g2⟩ := h.leaves l hl
    revert hm
    simp [leaf, (name_clean g1).2.1, (charData_clean g2).2]
  simp [Group.render, h1, h2, h3]

theorem document_nonul (gs : List Group) (h : ∀ g ∈ gs, GroupOk g) : (0 : Byte) ∉ document gs := by
  have h3 : (0 : Byte) ∉ gs.flatMap Group.render := by
    intro hm
    obtain ⟨g, hg, hm⟩ := List.mem_flatMap.mp hm
    exact group_nonul g (h g hg) hm
  simp [document, h3]

local macro "isname" : tactic => `(tactic| first | decide | (dsimp only; decide))

theorem escapeInto_charData (s : List Byte) : CharData (escapeInto 768 s) := by
  obtain ⟨k, _, h, _⟩ := escapeInto_eq s 768 (by omega)
  rw [h]
  exact charData_escape _

theorem recordGroupCut_in (id : Nat) (frame : Option Nat) (r : Record) (u : List Byte) (stamp : Option (List Byte))
    (hs : ∀ t, stamp = some t → CharData t) : GroupIn (recordGroupCut id frame r u stamp) := by
  have hd : ∀ n, CharData (dec n) ∧ (34 : Byte) ∉ dec n := fun n =>
    ⟨charData_dec n, fun h => (decDigits_harmless n _ h).2 rfl⟩
  have key : ∀ l ∈ (recordGroupCut id frame r u stamp).leaves, (IsName l.1 ∧ CharData l.2) ∧ NoRoot l.1 := by
    intro l hl
    simp only [recordGroupCut, List.mem_cons, List.mem_append] at hl
    rcases hl with (rfl | hl) | (rfl | hl)
    · exact ⟨⟨by isname, charData_label r⟩, by isname⟩
    · split at hl
      · simp at hl
      · simp only [List.mem_cons, List.mem_append, List.not_mem_nil, or_false] at hl
        rcases hl with (rfl | hl) | rfl
        · exact ⟨⟨by isname, charData_dec _⟩, by isname⟩
        · split at hl
          · simp at hl
          · simp only [List.mem_cons, List.not_mem_nil, or_false] at hl
            rcases hl with rfl | rfl
            · exact ⟨⟨by isname, charData_dec _⟩, by isname⟩
            · exact ⟨⟨by isname, charData_dec _⟩, by isname⟩
        · exact ⟨⟨by isname, escapeInto_charData _⟩, by isname⟩
    · exact ⟨⟨by isname, escapeInto_charData _⟩, by isname⟩
    · cases stamp with
      | none => simp at hl
      | some t =>
        simp only [List.mem_cons, List.not_mem_nil, or_false] at hl
        subst hl
        exact ⟨⟨by isname, hs t rfl⟩, by isname⟩
  refine ⟨⟨by simp only [recordGroupCut]; decide, ?_, fun l hl => (key l hl).1⟩, by simp only [recordGroupCut]; decide, fun l hl => (key l hl).2⟩
  intro a ha
  simp only [recordGroupCut, List.mem_cons] at ha
  rcases ha with rfl | ha
  · exact ⟨by isname, hd id⟩
  · cases frame with
    | none => simp at ha
    | some k =>
      simp only [List.mem_cons, List.not_mem_nil, or_false] at ha
      subst ha
      exact ⟨by isname, hd k⟩

theorem recordGroupsCut_in (frame : Option Nat) (its : List Item) (hs : ∀ it ∈ its, ∀ t, it.2.2 = some t → CharData t) (start : Nat) :
    ∀ g ∈ recordGroupsCut frame start its, GroupIn g := by
  induction its generalizing start with
  | nil => simp [recordGroupsCut]
  | cons it its ih =>
    intro g hg
    obtain ⟨r, u, stamp⟩ := it
    rcases List.mem_cons.mp hg with rfl | hg
    · exact recordGroupCut_in start frame r u stamp (hs (r, u, stamp) (List.mem_cons_self ..))
    · exact ih (fun x hx => hs x (List.mem_cons_of_mem _ hx)) _ g hg

theorem telegramGroupsCut_in (tss : List (List Item)) (hs : ∀ its ∈ tss, ∀ it ∈ its, ∀ t, it.2.2 = some t → CharData t) (start k : Nat) :
    ∀ g ∈ telegramGroupsCut start k tss, GroupIn g := by
  induction tss generalizing start k with
  | nil => simp [telegramGroupsCut]
  | cons its tss ih =>
    intro g hg
    rcases List.mem_append.mp hg with hg | hg
    · exact recordGroupsCut_in _ its (hs its (List.mem_cons_self ..)) _ g hg
    · exact ih (fun x hx => hs x (List.mem_cons_of_mem _ hx)) _ _ g hg

theorem readoutGroupsCut_in (tss : List (List Item)) (hs : ∀ its ∈ tss, ∀ it ∈ its, ∀ t, it.2.2 = some t → CharData t) :
    ∀ g ∈ readoutGroupsCut tss, GroupIn g := by
  match tss, hs with
  | [], _ => simp [readoutGroupsCut, telegramGroupsCut]
  | [its], hs => exact recordGroupsCut_in _ _ (hs _ (List.mem_cons_self ..)) _
  | a :: b :: c, hs => exact telegramGroupsCut_in _ hs _ _

theorem slaveGroup_in (h : VarHeader) (p m : List Byte) : GroupIn (slaveGroup h p m) := by
  refine ⟨slaveGroup_ok h p m, by simp only [slaveGroup]; decide, ?_⟩
  intro l hl
  simp only [slaveGroup, List.mem_cons, List.not_mem_nil, or_false] at hl
  rcases hl with rfl | rfl | rfl | rfl | rfl | rfl | rfl | rfl <;> isname

end Mbus
