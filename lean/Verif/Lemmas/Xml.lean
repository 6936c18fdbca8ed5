import Verif.Model.Xml
import Verif.Spec.Xml
import Verif.Props.Text
import Verif.Props.Value
/- Lemmas for the XML output. -/
namespace Mbus
open Spec

/-- `c` succeeds with a result satisfying `Q`. -/
def Runs {α : Type} (c : C α) (Q : α → Prop) : Prop := ∃ a, c = .ok a ∧ Q a

theorem Runs.ok {α : Type} {a : α} {Q : α → Prop} (h : Q a) : Runs (.ok a) Q := ⟨a, rfl, h⟩

theorem Runs.bind {α β : Type} {c : C α} {k : α → C β} {P : α → Prop} {Q : β → Prop} (h : Runs c P)
    (hk : ∀ a, P a → Runs (k a) Q) : Runs (c >>= k) Q := by
  obtain ⟨a, rfl, ha⟩ := h
  rw [ok_bind]
  exact hk a ha

/-- The buffer of `n` bytes holds the text `t` (so far). -/
def Holds (b : XBuf) (n : Nat) (t : List Byte) : Prop := b.mem.length = n ∧ b.len = t.length ∧ t <+: b.mem

/-- ... and it is terminated. -/
def Text (b : XBuf) (n : Nat) (t : List Byte) : Prop := b.mem.length = n ∧ b.len = t.length ∧ (t ++ [0]) <+: b.mem

theorem Text.holds {b : XBuf} {n : Nat} {t : List Byte} (h : Text b n t) : Holds b n t :=
  ⟨h.1, h.2.1, (List.prefix_append t [0]).trans h.2.2⟩

theorem holds_new (junk : Nat → Byte) (n : Nat) : Holds ⟨malloc junk n, 0⟩ n [] := ⟨by simp, rfl, by simp⟩

theorem snprintfAt_fits (m : List Byte) (t s : List Byte) (h : t <+: m) (hl : t.length + s.length < m.length) :
    ∃ m', snprintfAt m t.length (m.length - t.length) s = .ok m' ∧ m'.length = m.length ∧ (t ++ s ++ [0]) <+: m' := by
  obtain ⟨r, rfl⟩ := h
  have hr : s.length < r.length := by simp at hl; omega
  refine ⟨t ++ (s ++ [0]) ++ r.drop (s.length + 1), ?_, by simp; omega, ?_⟩
  · unfold snprintfAt
    have h1 : (t ++ r).length - t.length = r.length := by simp
    rw [h1, if_neg (by omega)]
    have h2 : s.take (r.length - 1) = s := List.take_of_length_le (by omega)
    simp only [h2]
    rw [if_pos (by simp; omega)]
    congr 1
    have h3 : (t ++ r).take t.length = t := by simp
    have h4 : (t ++ r).drop (t.length + (s ++ [0]).length) = r.drop (s.length + 1) := by
      simp [List.drop_append]
    rw [h3, h4]
  · exact ⟨r.drop (s.length + 1), by simp⟩

theorem put_runs {b : XBuf} {n : Nat} {t : List Byte} (h : Holds b n t) (s : List Byte) (hl : t.length + s.length < n) :
    Runs (b.put s) (fun b' => Text b' n (t ++ s)) := by
  obtain ⟨h1, h2, h3⟩ := h
  obtain ⟨m', e, hm, hp⟩ := snprintfAt_fits b.mem t s h3 (by omega)
  refine ⟨⟨m', b.len + s.length⟩, ?_, ?_⟩
  · unfold XBuf.put
    rw [if_neg (by rw [h1, h2]; omega), h2, e]
    rfl
  · exact ⟨by rw [hm, h1], by simp [h2], hp⟩

theorem put_bind {α : Type} {b : XBuf} {n : Nat} {t : List Byte} {Q : α → Prop} (h : Holds b n t) (s : List Byte)
    (hl : t.length + s.length < n) {k : XBuf → C α} (hk : ∀ b', Text b' n (t ++ s) → Runs (k b') Q) :
    Runs (b.put s >>= k) Q := (put_runs h s hl).bind hk

theorem text_cstr {b : XBuf} {n : Nat} {t : List Byte} (h : Text b n t) (h0 : (0 : Byte) ∉ t) : cstr b.mem = .ok t := by
  rw [cstr_prefix t b.mem h.2.2, upToNul_eq t h0]

/-! ### escaping into the scratch array -/

theorem escape1_nonul (c : Byte) (h : c ≠ 0) : (0 : Byte) ∉ escape1 c := by
  revert h
  exact forall_byte (P := fun c => c ≠ 0 → (0 : Byte) ∉ escape1 c) (by decide +kernel) c

theorem escape_nonul (s : List Byte) (h : (0 : Byte) ∉ s) : (0 : Byte) ∉ escape s := by
  unfold escape
  intro hm
  obtain ⟨c, hc, h0⟩ := List.mem_flatMap.mp hm
  exact escape1_nonul c (fun e => h (e ▸ hc)) h0

theorem encodeInto_any (e s : List Byte) (h1 : 1 ≤ e.length) (hs : (0 : Byte) ∉ s) :
    Runs (encodeInto e s) (fun p => p.1.length = e.length ∧ ∃ k, k ≤ s.length ∧ p.2 = escape (s.take k) ∧
      p.2.length < e.length ∧ (k < s.length → e.length ≤ p.2.length + 6) ∧ (∀ j, j < k → (escape (s.take j)).length + 6 < e.length)) := by
  obtain ⟨k, dst, a1, a2, a3, a4, a5, _, a7⟩ := C22_xml_bounds e s [] e.length hs h1 (Nat.le_refl _)
  refine ⟨(dst, escape (s.take k)), ?_, a5, k, a2, rfl, a4, a7⟩
  unfold encodeInto
  rw [a1, ok_bind, cstr_prefix _ _ a3, upToNul_eq]
  · rfl
  · exact escape_nonul _ (fun h => hs (List.mem_of_mem_take h))

theorem encodeInto_all (e s : List Byte) (hs : (0 : Byte) ∉ s) (hl : (escape s).length + 6 < e.length) :
    Runs (encodeInto e s) (fun p => p.1.length = e.length ∧ p.2 = escape s) := by
  obtain ⟨p, hp, h1, k, h2, h3, h4, h5, _⟩ := encodeInto_any e s (by omega) hs
  refine ⟨p, hp, h1, ?_⟩
  by_cases hk : k < s.length
  · exfalso
    have h6 := h5 hk
    have h7 : (escape s).length = (escape (s.take k)).length + (escape (s.drop k)).length := by
      rw [← List.length_append, ← escape_append, List.take_append_drop]
    rw [h3] at h6
    omega
  · rw [h3, List.take_of_length_le (by omega)]

theorem escape_length (s : List Byte) : s.length ≤ (escape s).length ∧ (escape s).length ≤ 6 * s.length := by
  induction s with
  | nil => simp [escape]
  | cons c s ih =>
    rw [escape_cons, List.length_append, List.length_cons]
    have := escape1_length c
    omega

theorem escape_plain_length (s : List Byte) (h : Plain s) : (escape s).length = s.length := by
  induction s with
  | nil => rfl
  | cons c s ih =>
    rw [escape_cons, List.length_append, List.length_cons, ih (fun d hd => h d (List.mem_cons_of_mem _ hd))]
    obtain ⟨a1, a2, a3, a4⟩ := h c (List.mem_cons_self ..)
    have : (escape1 c).length = 1 := by
      unfold escape1
      rw [if_neg a1, if_neg a2, if_neg a3, if_neg a4]
      split <;> rfl
    omega

theorem leaf_length (n t : List Byte) : (leaf (n, t)).length = 14 + 2 * n.length + t.length := by
  simp [leaf]
  omega

/-! ### slave information -/

theorem productRules_plain : ∀ e ∈ productRules, ∀ p ∈ e.2, (escape p.label).length ≤ 200 ∧ (0 : Byte) ∉ p.label := by decide +kernel

theorem productName_plain (h : VarHeader) : ∃ t, productName h = .ok t ∧ (escape t).length ≤ 200 ∧ (0 : Byte) ∉ t := by
  obtain ⟨t, h1, h2⟩ := productName_ok h
  refine ⟨t, h1, ?_⟩
  have e : ∃ a b c, t = productNameText h a b c := by
    unfold productName at h1
    obtain ⟨m0, _, h1⟩ := bind_eq_ok.mp h1
    obtain ⟨m1, _, h1⟩ := bind_eq_ok.mp h1
    obtain ⟨i3, _, h1⟩ := bind_eq_ok.mp h1
    unfold strcpyS at h1
    split at h1
    · exact ⟨i3, m0, m1, by injection h1 with h1; exact h1.symm⟩
    · cases h1
  obtain ⟨a, b, c, rfl⟩ := e
  unfold productNameText
  dsimp only
  split
  · exact ⟨by simp [escape], by simp⟩
  · rename_i e he
    split
    · exact ⟨by simp [escape], by simp⟩
    · rename_i p hp
      exact productRules_plain e (List.mem_of_find?_eq_some he) p (List.mem_of_find?_eq_some hp)

theorem medium_plain : ∀ m : Byte, (escape (mediumLookup m)).length ≤ 200 ∧ (0 : Byte) ∉ mediumLookup m :=
  forall_byte (by decide +kernel)

theorem decDigits_byte (b : Byte) : (decDigits b.toNat).length ≤ 3 :=
  decDigits_length _ 3 (by decide) (by have := b.toNat_lt; omega)

theorem bcdDecodeHex4 (b : Buf 4) : bcdDecodeHex b.bytes 4 = .ok (leNat b.bytes : Int) ∧ leNat b.bytes < 2 ^ 32 := by
  constructor
  · have := bcdDecodeHex_eq b.bytes 4 (by decide) (by simp)
    rw [List.take_of_length_le (by simp)] at this
    exact this
  · have := leNat_lt b.bytes
    simpa using this


theorem flag_eq (m : Buf 2) : (do
    let m0 ← m.rd 0
    let m1 ← m.rd 1
    decodeManufacturer m0 m1) = .ok (flagLetters (leNat m.bytes)) := by
  rw [m.rd_lt (i := 0) (by decide), ok_bind, m.rd_lt (i := 1) (by decide), ok_bind, decodeManufacturer_eq]
  have e : m.bytes = [m.bytes[0]'(by simp), m.bytes[1]'(by simp)] := by
    apply List.ext_getElem
    · simp
    · intro i h1 h2
      have : i = 0 ∨ i = 1 := by simp at h2; omega
      rcases this with rfl | rfl <;> rfl
  have e2 : leNat m.bytes = (m.bytes[0]'(by simp)).toNat + 256 * (m.bytes[1]'(by simp)).toNat := by
    conv => lhs; rw [e]
    simp only [leNat]
    omega
  have h1 := (m.bytes[0]'(by simp)).toNat_lt
  have h2 := (m.bytes[1]'(by simp)).toNat_lt
  rw [e2]
  unfold flagLetters
  generalize (m.bytes[0]'(by simp)).toNat = a at *
  generalize (m.bytes[1]'(by simp)).toNat = b at *
  have g1 : b / 4 % 32 + 64 = 64 + (a + 256 * b) / 1024 % 32 := by omega
  have g2 : (a + 256 * b) / 32 % 32 + 64 = 64 + (a + 256 * b) / 32 % 32 := by omega
  have g3 : a % 32 + 64 = 64 + (a + 256 * b) % 32 := by omega
  rw [g1, g2, g3]

theorem flagLetters_nonul (n : Nat) : (0 : Byte) ∉ flagLetters n := by
  have key : ∀ k : Fin 32, UInt8.ofNat (64 + k.val) ≠ 0 := by decide +kernel
  intro h
  simp only [flagLetters, List.mem_cons, List.not_mem_nil, or_false] at h
  rcases h with h | h | h
  · exact key ⟨n / 1024 % 32, Nat.mod_lt _ (by decide)⟩ h.symm
  · exact key ⟨n / 32 % 32, Nat.mod_lt _ (by decide)⟩ h.symm
  · exact key ⟨n % 32, Nat.mod_lt _ (by decide)⟩ h.symm

theorem fmtHex2_nonul : ∀ b : Byte, (0 : Byte) ∉ fmtHex2 b := forall_byte (by decide +kernel)

theorem leaf_nonul (n t : List Byte) (hn : (0 : Byte) ∉ n) (ht : (0 : Byte) ∉ t) : (0 : Byte) ∉ leaf (n, t) := by
  simp [leaf, hn, ht]

theorem signature_eq (s : Buf 2) : s.bytes.reverse.flatMap fmtHex2 = fmtHex2 (s.bytes[1]'(by simp)) ++ fmtHex2 (s.bytes[0]'(by simp)) := by
  have e : s.bytes = [s.bytes[0]'(by simp), s.bytes[1]'(by simp)] := by
    apply List.ext_getElem
    · simp
    · intro i h1 h2
      have : i = 0 ∨ i = 1 := by simp at h2; omega
      rcases this with rfl | rfl <;> rfl
  conv => lhs; rw [e]
  simp

theorem hexDigits_8 (n : Nat) (h : n < 2 ^ 32) : (hexDigits n).length ≤ 8 := hexDigits_length n 8 (by decide) (by omega)

theorem toNat_mod64 (n : Nat) (h : n < 2 ^ 32) : (((n : Nat) : Int) % 2 ^ 64).toNat = n := by omega

theorem fmtInt_nat (n : Nat) : fmtInt (n : Int) = decDigits n := by
  unfold fmtInt
  rw [if_neg (by omega)]
  rfl

theorem render_nonul (g : Group) (hn : (0 : Byte) ∉ g.name) (ha : ∀ a ∈ g.attrs, (0 : Byte) ∉ a.1 ∧ (0 : Byte) ∉ a.2)
    (hl : ∀ l ∈ g.leaves, (0 : Byte) ∉ l.1 ∧ (0 : Byte) ∉ l.2) : (0 : Byte) ∉ g.render := by
  have h1 : (0 : Byte) ∉ g.attrs.flatMap attr := by
    intro h
    obtain ⟨a, hm, h0⟩ := List.mem_flatMap.mp h
    obtain ⟨x, y⟩ := ha a hm
    simp [attr, x, y] at h0
  have h2 : (0 : Byte) ∉ g.leaves.flatMap leaf := by
    intro h
    obtain ⟨a, hm, h0⟩ := List.mem_flatMap.mp h
    exact leaf_nonul a.1 a.2 (hl a hm).1 (hl a hm).2 h0
  simp [Group.render, hn, h1, h2]

theorem slaveGroup_nonul (h : VarHeader) (p m : List Byte) (hp : (0 : Byte) ∉ p) (hm : (0 : Byte) ∉ m) :
    (0 : Byte) ∉ (slaveGroup h p m).render := by
  apply render_nonul
  · simp [slaveGroup]
  · simp [slaveGroup]
  · intro l hl
    simp only [slaveGroup, List.mem_cons, List.not_mem_nil, or_false] at hl
    rcases hl with rfl | rfl | rfl | rfl | rfl | rfl | rfl | rfl
    · exact ⟨by simp, hexDigits_nonul _⟩
    · exact ⟨by simp, flagLetters_nonul _⟩
    · exact ⟨by simp, decDigits_nonul _⟩
    · exact ⟨by simp, escape_nonul _ hp⟩
    · exact ⟨by simp, escape_nonul _ hm⟩
    · exact ⟨by simp, decDigits_nonul _⟩
    · exact ⟨by simp, fmtHex2_nonul _⟩
    · refine ⟨by simp, ?_⟩
      rw [signature_eq]
      simp [fmtHex2_nonul]

/-- The slave information, and its length. -/
theorem headerXml_runs (junk : Nat → Byte) (h : VarHeader) : ∃ p, productName h = .ok p ∧
    headerXml junk h = .ok (slaveGroup h p (mediumLookup h.medium)).render ∧
    (slaveGroup h p (mediumLookup h.medium)).render.length ≤ 1000 ∧
    (0 : Byte) ∉ (slaveGroup h p (mediumLookup h.medium)).render := by
  obtain ⟨p, hp, hpl, hp0⟩ := productName_plain h
  obtain ⟨hml, hm0⟩ := medium_plain h.medium
  obtain ⟨hid, hidlt⟩ := bcdDecodeHex4 h.idBcd
  have hflag := flag_eq h.manufacturer
  have hidl := hexDigits_8 _ hidlt
  have hv := decDigits_byte h.version
  have ha := decDigits_byte h.accessNo
  have hfl : (flagLetters (leNat h.manufacturer.bytes)).length = 3 := rfl
  refine ⟨p, hp, ?_, ?_, ?_⟩
  · have key : Runs (headerXml junk h) (fun t => t = (slaveGroup h p (mediumLookup h.medium)).render) := by
      unfold headerXml
      have e1 : ∀ x, cs! "        <Id>" ++ x ++ cs! "</Id>\n" = leaf (cs! "Id", x) := fun x => by simp [leaf]
      have e2 : ∀ x, cs! "        <Manufacturer>" ++ x ++ cs! "</Manufacturer>\n" = leaf (cs! "Manufacturer", x) := fun x => by simp [leaf]
      have e3 : ∀ x, cs! "        <Version>" ++ x ++ cs! "</Version>\n" = leaf (cs! "Version", x) := fun x => by simp [leaf]
      have e4 : ∀ x, cs! "        <ProductName>" ++ x ++ cs! "</ProductName>\n" = leaf (cs! "ProductName", x) := fun x => by simp [leaf]
      have e5 : ∀ x, cs! "        <Medium>" ++ x ++ cs! "</Medium>\n" = leaf (cs! "Medium", x) := fun x => by simp [leaf]
      have e6 : ∀ x, cs! "        <AccessNumber>" ++ x ++ cs! "</AccessNumber>\n" = leaf (cs! "AccessNumber", x) := fun x => by simp [leaf]
      have e7 : ∀ x, cs! "        <Status>" ++ x ++ cs! "</Status>\n" = leaf (cs! "Status", x) := fun x => by simp [leaf]
      have e8 : ∀ x y, cs! "        <Signature>" ++ x ++ y ++ cs! "</Signature>\n" = leaf (cs! "Signature", x ++ y) := fun x y => by simp [leaf]
      simp only [e1, e2, e3, e4, e5, e6, e7, e8]
      refine put_bind (holds_new _ _) _ (by simp) fun b1 h1 => ?_
      rw [hid, ok_bind, toNat_mod64 _ hidlt]
      refine put_bind h1.holds _ (by simp [leaf_length]; omega) fun b2 h2 => ?_
      have hflag' : ∀ (k : List Byte → C (List Byte)), (do
          let m0 ← h.manufacturer.rd 0
          let m1 ← h.manufacturer.rd 1
          let man ← decodeManufacturer m0 m1
          k man) = k (flagLetters (leNat h.manufacturer.bytes)) := by
        intro k
        rw [h.manufacturer.rd_lt (i := 0) (by decide), h.manufacturer.rd_lt (i := 1) (by decide)] at hflag ⊢
        rw [ok_bind, ok_bind] at hflag ⊢
        rw [hflag, ok_bind]
      rw [hflag']
      refine put_bind h2.holds _ (by simp [leaf_length]; omega) fun b3 h3 => ?_
      rw [fmtInt_nat]
      refine put_bind h3.holds _ (by simp [leaf_length]; omega) fun b4 h4 => ?_
      rw [hp, ok_bind]
      refine (encodeInto_all _ p hp0 (by simp; omega)).bind fun q hq => ?_
      obtain ⟨e, t⟩ := q
      obtain ⟨hel, rfl⟩ := hq
      simp only [malloc_length] at hel
      refine put_bind h4.holds _ (by simp [leaf_length]; omega) fun b5 h5 => ?_
      refine (encodeInto_all e _ hm0 (by omega)).bind fun q hq => ?_
      obtain ⟨e', t⟩ := q
      obtain ⟨_, rfl⟩ := hq
      refine put_bind h5.holds _ (by simp [leaf_length]; omega) fun b6 h6 => ?_
      rw [fmtInt_nat]
      refine put_bind h6.holds _ (by simp [leaf_length]; omega) fun b7 h7 => ?_
      refine put_bind h7.holds _ (by simp [leaf_length]; omega) fun b8 h8 => ?_
      rw [h.signature.rd_lt (i := 1) (by decide), ok_bind, h.signature.rd_lt (i := 0) (by decide), ok_bind]
      refine put_bind h8.holds _ (by simp [leaf_length]; omega) fun b9 h9 => ?_
      refine put_bind h9.holds _ (by simp [leaf_length]; omega) fun b10 h10 => ?_
      have e : ∀ t, t = (slaveGroup h p (mediumLookup h.medium)).render → Text b10 8192 t → Runs (cstr b10.mem)
          (fun t => t = (slaveGroup h p (mediumLookup h.medium)).render) :=
        fun t et ht => ⟨t, text_cstr ht (by rw [et]; exact slaveGroup_nonul h p _ hp0 hm0), et⟩
      exact e _ (by simp [slaveGroup, Group.render, signature_eq, dec, hex]) h10
    obtain ⟨t, h1, rfl⟩ := key
    exact h1
  · simp [slaveGroup, Group.render, signature_eq, dec, hex, leaf_length]
    omega
  · exact slaveGroup_nonul h p _ hp0 hm0


/-! ### one record -/

/-- `recordGroup` with the unit and value texts already escaped (possibly cut). -/
def rawGroup (id : Nat) (frame : Option Nat) (r : Record) (ue ve : List Byte) (stamp : Option (List Byte)) : Group :=
  let difes := r.dife.bytes.take r.ndife
  { name := cs! "DataRecord"
    attrs := (cs! "id", dec id) :: (match frame with | some k => [(cs! "frame", dec k)] | none => [])
    leaves :=
      (cs! "Function", functionLabel r) ::
      (if Special r then []
       else
        (cs! "StorageNumber", dec (storageOf r.dif difes)) ::
        (if difes = [] then [] else [(cs! "Tariff", dec (tariffOf difes)), (cs! "Device", dec (deviceOf difes))]) ++
        [(cs! "Unit", ue)]) ++
      (cs! "Value", ve) ::
      (match stamp with | some t => [(cs! "Timestamp", t)] | none => []) }

theorem recordGroup_raw (id : Nat) (frame : Option Nat) (r : Record) (u : List Byte) (stamp : Option (List Byte)) :
    recordGroup id frame r u stamp = rawGroup id frame r (escape u) (escape (upToNul (shown r))) stamp := rfl

/-- `e` is the text `s` escaped, cut (between characters) only if it does not fit into the scratch array of 768 bytes. -/
def EscapedCut (s e : List Byte) : Prop :=
  ∃ k, k ≤ s.length ∧ e = escape (s.take k) ∧ e.length < 768 ∧ (k < s.length → 762 ≤ e.length) ∧
    (∀ j, j < k → (escape (s.take j)).length < 762)

theorem EscapedCut.same {s e f : List Byte} (he : EscapedCut s e) (hf : EscapedCut s f) : e = f := by
  obtain ⟨k, a1, rfl, a3, a4, a5⟩ := he
  obtain ⟨l, b1, rfl, b3, b4, b5⟩ := hf
  have : k = l := by
    rcases Nat.lt_trichotomy k l with h | h | h
    · have := b5 k h; have := a4 (by omega); omega
    · exact h
    · have := a5 l h; have := b4 (by omega); omega
  rw [this]

theorem EscapedCut.whole {s e : List Byte} (h : EscapedCut s e) (hl : (escape s).length < 762) : e = escape s := by
  obtain ⟨k, h1, h2, h3, h4, _⟩ := h
  by_cases hk : k < s.length
  · exfalso
    have h6 := h4 hk
    have h7 : (escape s).length = (escape (s.take k)).length + (escape (s.drop k)).length := by
      rw [← List.length_append, ← escape_append, List.take_append_drop]
    rw [h2] at h6
    omega
  · rw [h2, List.take_of_length_le (by omega)]

theorem EscapedCut.long {s e : List Byte} (h : EscapedCut s e) (hl : 762 ≤ (escape s).length) : 762 ≤ e.length := by
  obtain ⟨k, h1, h2, h3, h4, _⟩ := h
  by_cases hk : k < s.length
  · exact h4 hk
  · rw [h2, List.take_of_length_le (by omega)]
    exact hl

theorem EscapedCut.nonul {s e : List Byte} (h : EscapedCut s e) (hs : (0 : Byte) ∉ s) : (0 : Byte) ∉ e := by
  obtain ⟨k, _, rfl, _, _⟩ := h
  exact escape_nonul _ (fun h => hs (List.mem_of_mem_take h))

theorem encode_cut (e s : List Byte) (he : e.length = 768) (hs : (0 : Byte) ∉ s) :
    Runs (encodeInto e s) (fun p => p.1.length = 768 ∧ EscapedCut s p.2) := by
  obtain ⟨p, hp, h1, k, h2, h3, h4, h5, h6⟩ := encodeInto_any e s (by omega) hs
  exact ⟨p, hp, by omega, k, h2, h3, by omega, (fun h => by have := h5 h; omega), (fun j hj => by have := h6 j hj; omega)⟩

/-- What a record must satisfy so that printing its fields is defined. -/
structure Printable (r : Record) (u : List Byte) : Prop where
  unit : recordUnit r = .ok u
  unit0 : (0 : Byte) ∉ u
  ulen : u.length ≤ 127
  dlen : r.dataLen ≤ 234
  lvar : r.dif.toNat % 16 = 0xD → 1 ≤ r.dataLen
  storage : ¬ Special r → StorageOk r

theorem cstr_nonul (l c : List Byte) (h : cstr l = .ok c) : (0 : Byte) ∉ c := by
  unfold cstr at h
  split at h
  · injection h with h
    subst h
    intro h0
    have := List.all_eq_true.mp (List.all_takeWhile (p := fun x : Byte => decide (x ≠ 0)) (l := l)) 0 h0
    simp at this
  · cases h

theorem unitPrefix_nonul (e : Int) : (0 : Byte) ∉ unitPrefix e := by
  unfold unitPrefix
  repeat' split
  all_goals first | decide | skip
  simp [fmtInt_nonul]

theorem vifText_nonul : ∀ v : Byte, (0 : Byte) ∉ vifUnitText v ∧ (0 : Byte) ∉ fbText v ∧ (0 : Byte) ∉ fdText v :=
  forall_byte (by decide +kernel)

theorem snp_nonul (n : Nat) (t : List Byte) (h : (0 : Byte) ∉ t) : (0 : Byte) ∉ snp n t :=
  fun h0 => h (List.mem_of_mem_take h0)

theorem vibUnitText_nonul (r : Record) (t : List Byte) (h : vibUnitText r = .ok t) : (0 : Byte) ∉ t := by
  unfold vibUnitText at h
  obtain ⟨v0, _, h⟩ := bind_eq_ok.mp h
  split at h
  · split at h <;> injection h with h <;> subst h
    · decide
    · exact snp_nonul _ _ (vifText_nonul v0).2.1
  · split at h
    · split at h <;> injection h with h <;> subst h
      · decide
      · exact snp_nonul _ _ (vifText_nonul v0).2.2
    · split at h
      · exact cstr_nonul _ _ h
      · split at h
        · obtain ⟨c, hc, h⟩ := bind_eq_ok.mp h
          injection h with h
          subst h
          simp only [List.mem_append, unitPrefix_nonul, cstr_nonul _ _ hc, or_false, false_or]
          decide
        · injection h with h
          subst h
          exact snp_nonul _ _ (vifText_nonul _).1

theorem vibUnitText_total (r : Record) (c : List Byte) (hc : cstr r.customVif.bytes = .ok c) : ∃ t, vibUnitText r = .ok t := by
  unfold vibUnitText
  rw [rd0, ok_bind, hc]
  split
  · split <;> exact ⟨_, rfl⟩
  · split
    · split <;> exact ⟨_, rfl⟩
    · split
      · exact ⟨_, rfl⟩
      · split <;> exact ⟨_, rfl⟩

theorem Delivered.printable {r : Record} (h : Delivered r) (hs : ¬ Special r → StorageOk r) : ∃ u, Printable r u := by
  obtain ⟨⟨c, hc⟩, _⟩ := h.unit
  obtain ⟨h1, h2, _⟩ := h.bounds
  obtain ⟨t, ht⟩ := vibUnitText_total r c hc
  refine ⟨snp 128 (snp 256 t), ?_, snp_nonul _ _ (snp_nonul _ _ (vibUnitText_nonul r t ht)), ?_, h1, h2, hs⟩
  · unfold recordUnit vibUnitLookup
    rw [ht]
    rfl
  · unfold snp
    simp
    omega

theorem functionLabel_mem (r : Record) : functionLabel r ∈
    [cs! "Manufacturer specific", cs! "More records follow", cs! "Instantaneous value", cs! "Maximum value", cs! "Minimum value",
      cs! "Value during error state"] := by
  unfold functionLabel
  split
  · simp
  · split
    · simp
    · have hk : r.dif.toNat / 16 % 4 < 4 := Nat.mod_lt _ (by decide)
      generalize r.dif.toNat / 16 % 4 = k at hk
      match k, hk with
      | 0, _ => simp
      | 1, _ => simp
      | 2, _ => simp
      | 3, _ => simp
      | n + 4, h => exact absurd h (by omega)

theorem functionLabel_short (r : Record) : (functionLabel r).length ≤ 24 ∧ (0 : Byte) ∉ functionLabel r ∧
    escape (functionLabel r) = functionLabel r := by
  have key : ∀ t ∈ [cs! "Manufacturer specific", cs! "More records follow", cs! "Instantaneous value", cs! "Maximum value",
      cs! "Minimum value", cs! "Value during error state"], t.length ≤ 24 ∧ (0 : Byte) ∉ t ∧ escape t = t := by decide +kernel
  exact key _ (functionLabel_mem r)

theorem tariffOf_lt (l : List Byte) : tariffOf l < 4 ^ l.length := by
  induction l with
  | nil => simp [tariffOf]
  | cons x xs ih => simp only [tariffOf, List.length_cons, Nat.pow_succ]; omega

theorem deviceOf_lt (l : List Byte) : deviceOf l < 2 ^ l.length := by
  induction l with
  | nil => simp [deviceOf]
  | cons x xs ih => simp only [deviceOf, List.length_cons, Nat.pow_succ]; omega

theorem decDigits_31 (n : Nat) (h : n < 2 ^ 31) : (decDigits n).length ≤ 10 := decDigits_length n 10 (by decide) (by omega)

theorem tariff_short (l : List Byte) (h : l.length ≤ 8) : (decDigits (tariffOf l)).length ≤ 5 ∧ (decDigits (deviceOf l)).length ≤ 3 := by
  have h1 := tariffOf_lt l
  have h2 := deviceOf_lt l
  have h3 : 4 ^ l.length ≤ 4 ^ 8 := Nat.pow_le_pow_right (by decide) h
  have h4 : 2 ^ l.length ≤ 2 ^ 8 := Nat.pow_le_pow_right (by decide) h
  exact ⟨decDigits_length _ 5 (by decide) (by omega), decDigits_length _ 3 (by decide) (by omega)⟩

/-- Frame counter argument of the C function for an optional telegram number. -/
def frameArg : Option Nat → Int
  | some k => k
  | none => -1

theorem rawGroup_nonul (id : Nat) (frame : Option Nat) (r : Record) (ue ve : List Byte) (stamp : Option (List Byte))
    (hu : (0 : Byte) ∉ ue) (hv : (0 : Byte) ∉ ve) (hs : ∀ t, stamp = some t → (0 : Byte) ∉ t) :
    (0 : Byte) ∉ (rawGroup id frame r ue ve stamp).render := by
  apply render_nonul
  · simp [rawGroup]
  · intro a ha
    simp only [rawGroup, List.mem_cons] at ha
    rcases ha with rfl | ha
    · exact ⟨by simp, decDigits_nonul _⟩
    · cases frame with
      | none => simp at ha
      | some k =>
        simp only [List.mem_cons, List.not_mem_nil, or_false] at ha
        subst ha
        exact ⟨by simp, decDigits_nonul _⟩
  · intro l hl
    simp only [rawGroup, List.mem_cons, List.mem_append] at hl
    rcases hl with (rfl | hl) | (rfl | hl)
    · exact ⟨by simp, (functionLabel_short r).2.1⟩
    · split at hl
      · simp at hl
      · simp only [List.mem_cons, List.mem_append, List.not_mem_nil, or_false] at hl
        rcases hl with (rfl | hl) | rfl
        · exact ⟨by simp, decDigits_nonul _⟩
        · split at hl
          · simp at hl
          · simp only [List.mem_cons, List.not_mem_nil, or_false] at hl
            rcases hl with rfl | rfl
            · exact ⟨by simp, decDigits_nonul _⟩
            · exact ⟨by simp, decDigits_nonul _⟩
        · exact ⟨by simp, hu⟩
    · exact ⟨by simp, hv⟩
    · cases stamp with
      | none => simp at hl
      | some t =>
        simp only [List.mem_cons, List.not_mem_nil, or_false] at hl
        subst hl
        exact ⟨by simp, hs t rfl⟩

end Mbus
