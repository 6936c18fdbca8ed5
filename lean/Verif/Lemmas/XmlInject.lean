import Verif.Lemmas.XmlWhole
/-
The text of a document determines its groups: for every group with letters as names and character data as texts.
-/
namespace Mbus
open Spec

theorem sep_eq {c : Byte} {a b x y : List Byte} (h : a ++ c :: x = b ++ c :: y) (ha : c ∉ a) (hb : c ∉ b) : a = b ∧ x = y := by
  induction a generalizing b with
  | nil =>
    cases b with
    | nil => exact ⟨rfl, by simpa using h⟩
    | cons d b =>
      simp only [List.nil_append, List.cons_append, List.cons.injEq] at h
      exact absurd (by rw [h.1]; exact List.mem_cons_self ..) hb
  | cons d a ih =>
    cases b with
    | nil =>
      simp only [List.nil_append, List.cons_append, List.cons.injEq] at h
      exact absurd (by rw [← h.1]; exact List.mem_cons_self ..) ha
    | cons e b =>
      simp only [List.cons_append, List.cons.injEq] at h
      obtain ⟨h1, h2⟩ := ih h.2 (fun h => ha (List.mem_cons_of_mem _ h)) (fun h => hb (List.mem_cons_of_mem _ h))
      exact ⟨by rw [h.1, h1], h2⟩

/-- Names end at the first character that is not a letter. -/
theorem letters_eq {a b x y : List Byte} {c d : Byte} (h : a ++ c :: x = b ++ d :: y) (ha : ∀ e ∈ a, Letter e) (hb : ∀ e ∈ b, Letter e)
    (hc : ¬ Letter c) (hd : ¬ Letter d) : a = b ∧ c :: x = d :: y := by
  induction a generalizing b with
  | nil =>
    cases b with
    | nil => exact ⟨rfl, by simpa using h⟩
    | cons e b =>
      simp only [List.nil_append, List.cons_append, List.cons.injEq] at h
      exact absurd (hb e (List.mem_cons_self ..)) (h.1 ▸ hc)
  | cons f a ih =>
    cases b with
    | nil =>
      simp only [List.nil_append, List.cons_append, List.cons.injEq] at h
      exact absurd (ha f (List.mem_cons_self ..)) (h.1 ▸ hd)
    | cons e b =>
      simp only [List.cons_append, List.cons.injEq] at h
      obtain ⟨h1, h2⟩ := ih h.2 (fun g hg => ha g (List.mem_cons_of_mem _ hg)) (fun g hg => hb g (List.mem_cons_of_mem _ hg))
      exact ⟨by rw [h.1, h1], h2⟩

theorem name_no {n : List Byte} (h : IsName n) {c : Byte} (hc : ¬ Letter c) : c ∉ n := fun hm => hc (h.2 c hm)

theorem attrs_inject : ∀ (as bs : List (List Byte × List Byte)) (x y : List Byte),
    (∀ a ∈ as, IsName a.1 ∧ CharData a.2 ∧ (34 : Byte) ∉ a.2) → (∀ a ∈ bs, IsName a.1 ∧ CharData a.2 ∧ (34 : Byte) ∉ a.2) →
    as.flatMap attr ++ 62 :: x = bs.flatMap attr ++ 62 :: y → as = bs ∧ x = y
  | [], [], x, y, _, _, h => ⟨rfl, by simpa using h⟩
  | [], b :: bs, x, y, _, _, h => by simp [attr] at h
  | a :: as, [], x, y, _, _, h => by simp [attr] at h
  | (n, v) :: as, (n', v') :: bs, x, y, ha, hb, h => by
    obtain ⟨a1, _, a3⟩ := ha (n, v) (List.mem_cons_self ..)
    obtain ⟨b1, _, b3⟩ := hb (n', v') (List.mem_cons_self ..)
    simp only [List.flatMap_cons, attr, List.append_assoc, List.cons_append, List.cons.injEq, true_and, List.nil_append] at h
    obtain ⟨h1, h2⟩ := sep_eq (c := 61) h (name_no a1 (by decide)) (name_no b1 (by decide))
    simp only [List.cons.injEq, true_and] at h2
    obtain ⟨h3, h4⟩ := sep_eq (c := 34) h2 a3 b3
    obtain ⟨h5, h6⟩ := attrs_inject as bs x y (fun a h => ha a (List.mem_cons_of_mem _ h)) (fun a h => hb a (List.mem_cons_of_mem _ h)) h4
    exact ⟨by rw [h1, h3, h5], h6⟩

theorem leaves_inject : ∀ (as bs : List (List Byte × List Byte)) (x y : List Byte),
    (∀ a ∈ as, IsName a.1 ∧ CharData a.2) → (∀ a ∈ bs, IsName a.1 ∧ CharData a.2) →
    as.flatMap leaf ++ (cs! "    <" ++ x) = bs.flatMap leaf ++ (cs! "    <" ++ y) → as = bs ∧ x = y
  | [], [], x, y, _, _, h => ⟨rfl, by simpa using h⟩
  | [], b :: bs, x, y, _, _, h => by simp [leaf] at h
  | a :: as, [], x, y, _, _, h => by simp [leaf] at h
  | (n, v) :: as, (n', v') :: bs, x, y, ha, hb, h => by
    obtain ⟨a1, a2⟩ := ha (n, v) (List.mem_cons_self ..)
    obtain ⟨b1, b2⟩ := hb (n', v') (List.mem_cons_self ..)
    simp only [List.flatMap_cons, leaf, List.append_assoc] at h
    have h := List.append_cancel_left h
    simp only [List.cons_append, List.nil_append] at h
    obtain ⟨h1, h2⟩ := sep_eq (c := 62) h (name_no a1 (by decide)) (name_no b1 (by decide))
    obtain ⟨h3, h4⟩ := sep_eq (c := 60) h2 (charData_clean a2).1 (charData_clean b2).1
    simp only [h1, List.cons.injEq, true_and] at h4
    have h4 := List.append_cancel_left h4
    simp only [List.cons.injEq, true_and] at h4
    obtain ⟨h5, h6⟩ := leaves_inject as bs x y (fun a h => ha a (List.mem_cons_of_mem _ h)) (fun a h => hb a (List.mem_cons_of_mem _ h))
      (by simpa using h4)
    exact ⟨by rw [h1, h3, h5], h6⟩

theorem attrs_head (as : List (List Byte × List Byte)) (x : List Byte) :
    ∃ c y, as.flatMap attr ++ 62 :: x = c :: y ∧ ¬ Letter c := by
  cases as with
  | nil => exact ⟨62, x, rfl, by decide⟩
  | cons a as => exact ⟨32, _, rfl, by decide⟩

theorem groups_inject : ∀ (gs ks : List Group) (x y : List Byte), (∀ g ∈ gs, GroupOk g) → (∀ g ∈ ks, GroupOk g) →
    gs.flatMap Group.render ++ 60 :: x = ks.flatMap Group.render ++ 60 :: y → gs = ks ∧ x = y
  | [], [], x, y, _, _, h => ⟨rfl, by simpa using h⟩
  | [], b :: bs, x, y, _, _, h => by simp [Group.render] at h
  | a :: as, [], x, y, _, _, h => by simp [Group.render] at h
  | ⟨n, as, ls⟩ :: gs, ⟨n', as', ls'⟩ :: ks, x, y, hg, hk, h => by
    have g1 := hg _ (List.mem_cons_self ..)
    have k1 := hk _ (List.mem_cons_self ..)
    simp only [List.flatMap_cons, Group.render, List.append_assoc] at h
    have h := List.append_cancel_left h
    simp only [List.cons_append, List.nil_append] at h
    obtain ⟨c, u, e1, hc⟩ := attrs_head as (10 :: (ls.flatMap leaf ++ cs! "    </" ++ (n ++ (cs! ">\n\n" ++ (gs.flatMap Group.render ++ 60 :: x)))))
    obtain ⟨d, w, e2, hd⟩ := attrs_head as' (10 :: (ls'.flatMap leaf ++ cs! "    </" ++ (n' ++ (cs! ">\n\n" ++ (ks.flatMap Group.render ++ 60 :: y)))))
    have h' : n ++ c :: u = n' ++ d :: w := by
      rw [← e1, ← e2]
      simpa using h
    obtain ⟨h1, h2⟩ := letters_eq h' g1.name.2 k1.name.2 hc hd
    rw [← e1, ← e2] at h2
    obtain ⟨h3, h4⟩ := attrs_inject _ _ _ _ g1.attrs k1.attrs h2
    simp only [List.cons.injEq, true_and] at h4
    obtain ⟨h5, h6⟩ := leaves_inject ls ls' (47 :: (n ++ (cs! ">\n\n" ++ (gs.flatMap Group.render ++ 60 :: x))))
      (47 :: (n' ++ (cs! ">\n\n" ++ (ks.flatMap Group.render ++ 60 :: y)))) g1.leaves k1.leaves (by simpa using h4)
    simp only [h1, List.cons.injEq, true_and] at h6
    have h6 := List.append_cancel_left (List.append_cancel_left h6)
    obtain ⟨h7, h8⟩ := groups_inject gs ks x y (fun g h => hg g (List.mem_cons_of_mem _ h)) (fun g h => hk g (List.mem_cons_of_mem _ h)) h6
    dsimp only at h3
    subst h1 h3 h5 h7
    exact ⟨rfl, h8⟩

/-- The text of a document determines its groups. -/
theorem document_inject (gs ks : List Group) (hg : ∀ g ∈ gs, GroupOk g) (hk : ∀ g ∈ ks, GroupOk g) (h : document gs = document ks) :
    gs = ks := by
  simp only [document, List.append_assoc] at h
  exact (groups_inject gs ks _ _ hg hk (List.append_cancel_left h)).1

end Mbus
