import Verif.Lemmas.XmlDoc
/- The XML buffer overflows: records whose XML is longer than the room ensured. -/
namespace Mbus
open Spec

theorem put_long {b : XBuf} {n : Nat} {t : List Byte} (h : Text b n t) (s : List Byte) (ht : t.length < n) :
    Runs (b.put s) (fun b' => b'.mem.length = n ∧ b'.len = t.length + s.length) := by
  obtain ⟨h1, h2, h3⟩ := h
  unfold XBuf.put
  rw [if_neg (by omega)]
  unfold snprintfAt
  rw [if_neg (by omega)]
  dsimp only
  rw [if_pos (by simp; omega), ok_bind]
  exact .ok ⟨by simp; omega, by simp [h2]⟩

theorem recordsXml_append (junk : Nat → Nat → Byte) (fc : Int) (xs ys : List Stamped) (cnt : Int) (b : XBuf) :
    recordsXml junk fc (xs ++ ys) cnt b = recordsXml junk fc xs cnt b >>= fun q => recordsXml junk fc ys q.2 q.1 := by
  induction xs generalizing cnt b with
  | nil => rfl
  | cons x xs ih =>
    obtain ⟨r, stamp⟩ := x
    simp only [List.cons_append, recordsXml]
    cases recordXml (junk cnt.toNat) r stamp cnt fc with
    | error e => rfl
    | ok t =>
      rw [ok_bind, ok_bind]
      cases (b.grow (scratch (junk cnt.toNat) 3)).put t with
      | error e => rfl
      | ok b =>
        rw [ok_bind, ok_bind]
        cases int32 (cnt + 1) with
        | error e => rfl
        | ok c => rw [ok_bind, ok_bind, ih]

theorem recordsXml_small (junk : Nat → Nat → Byte) (frame : Option Nat) (hf : ∀ k, frame = some k → k < 2 ^ 31) (its : List Item)
    (h : ∀ it ∈ its, Ready it) (start : Nat) (hc : start + its.length < 2 ^ 31) (b : XBuf) (t : List Byte) (hb : Text b 8192 t)
    (hl : t.length + ((recordGroups frame start its).flatMap Group.render).length ≤ 7168) :
    Runs (recordsXml junk (frameArg frame) (its.map fun it => (it.1, it.2.2)) start b)
      (fun p => p.2 = ((start + its.length : Nat) : Int) ∧ Text p.1 8192 (t ++ (recordGroups frame start its).flatMap Group.render)) := by
  induction its generalizing start b t with
  | nil => exact .ok ⟨rfl, by simpa [recordGroups] using hb⟩
  | cons it its ih =>
    have hc' : start + 1 + its.length < 2 ^ 31 := by simp at hc; omega
    obtain ⟨r, u, stamp⟩ := it
    simp only [recordGroups, List.flatMap_cons, List.length_append] at hl
    obtain ⟨e1, e2, e3⟩ := recordXml_modest (junk ((start : Int)).toNat) (r, u, stamp) (h _ (List.mem_cons_self ..)) start (by omega) frame hf
    dsimp only at e1 e2 e3
    simp only [List.map_cons, recordsXml]
    have hg : b.grow (scratch (junk ((start : Int)).toNat) 3) = b := by
      unfold XBuf.grow
      rw [if_neg]
      obtain ⟨h1, h2, _⟩ := hb
      omega
    rw [hg, e1, ok_bind]
    refine put_bind hb.holds _ (by omega) fun b' hb' => ?_
    have : ((start : Int) + 1) = ((start + 1 : Nat) : Int) := by simp
    rw [this, int32_nat _ (by omega), ok_bind]
    obtain ⟨p, hp, hp1, hp2⟩ := ih (fun x hx => h x (List.mem_cons_of_mem _ hx)) (start + 1) (by omega) b' _ hb'
      (by simp only [List.length_append]; omega)
    refine ⟨p, hp, ?_, ?_⟩
    · rw [hp1]; simp; omega
    · simpa [recordGroups] using hp2

/-- A document of at most 7168 bytes followed by a record whose XML leaves less than no room: the closing tag is written behind
the buffer. -/
theorem overflow (junk0 : Nat → Byte) (junk : Nat → Nat → Byte) (h : VarHeader) (p : List Byte) (hp : productName h = .ok p)
    (its : List Item) (hr : ∀ it ∈ its, Ready it) (hc : its.length + 1 < 2 ^ 31) (r : Record) (u : List Byte)
    (hpr : Printable r u)
    (hS : (document (slaveGroup h p (mediumLookup h.medium) :: recordGroups none 0 its)).length ≤ 7180)
    (hL : ∀ ue ve, EscapedCut u ue → EscapedCut (upToNul (shown r)) ve →
      8204 < (document (slaveGroup h p (mediumLookup h.medium) :: recordGroups none 0 its)).length +
        (rawGroup its.length none r ue ve none).render.length) :
    ∃ i, variableXml junk0 junk h (its.map (fun it => (it.1, it.2.2)) ++ [(r, none)]) = .error (.oobWrite 8192 i) := by
  have hdoc : (document (slaveGroup h p (mediumLookup h.medium) :: recordGroups none 0 its)).length = 12 +
      ((cs! "<?xml version=\"1.0\" encoding=\"ISO-8859-1\"?>\n<MBusData>\n\n" ++ (slaveGroup h p (mediumLookup h.medium)).render).length +
        ((recordGroups none 0 its).flatMap Group.render).length) := by
    simp [document]
    omega
  rw [hdoc] at hS hL
  obtain ⟨p', hp', h1, h2, h3⟩ := headerXml_runs junk0 h
  rw [hp] at hp'
  injection hp' with hp'
  subst hp'
  obtain ⟨b1, e1, hb1⟩ := put_runs (holds_new (scratch junk0 3) 8192) XML_PI (by simp [XML_PI])
  obtain ⟨b2, e2, hb2⟩ := put_runs hb1.holds (cs! "<MBusData>\n\n") (by simp [XML_PI])
  obtain ⟨b3, e3, hb3⟩ := put_runs hb2.holds (slaveGroup h p (mediumLookup h.medium)).render (by simp [XML_PI]; omega)
  have hb3' : Text b3 8192 (cs! "<?xml version=\"1.0\" encoding=\"ISO-8859-1\"?>\n<MBusData>\n\n" ++
      (slaveGroup h p (mediumLookup h.medium)).render) := by simpa [XML_PI] using hb3
  obtain ⟨⟨b4, c⟩, e4, e5, hb4⟩ := recordsXml_small junk none (by simp) its hr 0 (by omega) b3 _ hb3' (by omega)
  dsimp only at e5 hb4
  subst e5
  have e4' : recordsXml junk (-1) (its.map fun it => (it.1, it.2.2)) 0 b3 = .ok (b4, ((0 + its.length : Nat) : Int)) := e4
  obtain ⟨ue, ve, hue, hve, e6⟩ := recordXml_runs (junk ((0 + its.length : Nat) : Int).toNat) r u hpr none (by simp [StampOk]) its.length
    (by omega) none (by simp)
  have hlong := hL ue ve hue hve
  obtain ⟨b5, e7, h8, h9⟩ := put_long hb4 (rawGroup its.length none r ue ve none).render (by simp only [List.length_append] at *; omega)
  have hg : ∀ j, b4.grow j = b4 := by
    intro j
    unfold XBuf.grow
    rw [if_neg]
    obtain ⟨h1, h2, _⟩ := hb4
    simp only [List.length_append] at *
    omega
  have e8 : recordsXml junk (-1) [(r, none)] ((0 + its.length : Nat) : Int) b4 = .ok (b5, ((its.length + 1 : Nat) : Int)) := by
    have hn : (((0 + its.length : Nat) : Int) + 1) = ((its.length + 1 : Nat) : Int) := by omega
    have h0 : ((0 + its.length : Nat) : Int) = (its.length : Int) := by omega
    simp only [recordsXml]
    rw [hg, hn]
    rw [h0] at e6 ⊢
    have e6' : recordXml (junk ((its.length : Int)).toNat) r none (its.length : Int) (-1) = .ok (rawGroup its.length none r ue ve none).render := e6
    rw [e6', ok_bind, e7, ok_bind, int32_nat _ (by omega)]
    rfl
  refine ⟨b5.len, ?_⟩
  unfold variableXml
  dsimp only
  rw [e1, ok_bind, e2, ok_bind, h1, ok_bind, e3, ok_bind, recordsXml_append, e4', ok_bind, e8, ok_bind]
  have e9 : ∀ s, b5.put s = .error (.oobWrite 8192 b5.len) := by
    intro s
    unfold XBuf.put
    rw [if_pos, h8]
    simp only [List.length_append] at *
    omega
  rw [e9]
  rfl

end Mbus
