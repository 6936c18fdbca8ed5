import Verif.Lemmas.XmlForm
/- Lemmas about the XML of normalised records. -/
namespace Mbus
open Spec

/-- What a normalised record must satisfy so that printing it is defined. -/
structure NFit (n : NRecord) : Prop where
  function : (0 : Byte) ∉ n.function ∧ (escape n.function).length ≤ 24
  storage : (fmtInt n.storage).length ≤ 11
  tariff : (fmtInt n.tariff).length ≤ 11
  device : (fmtInt n.device).length ≤ 11
  unit : (0 : Byte) ∉ n.unit.getD []
  quantity : (0 : Byte) ∉ n.quantity.getD []
  value : ∀ s k, n.value = .str s k → (0 : Byte) ∈ s

/-- What a normalised record must satisfy so that it is printed completely. -/
structure NReady (n : NRecord) : Prop extends NFit n where
  terse : Terse n

theorem encode_le {e s : List Byte} (he : e.length = 768) (hs : (0 : Byte) ∉ s) (hl : (escape s).length ≤ 745) :
    Runs (encodeInto e s) (fun p => p.1.length = 768 ∧ p.2 = escape s) := by
  have := encodeInto_all e s hs (by omega)
  rwa [he] at this

theorem encodeOpt_le {e : List Byte} (he : e.length = 768) (s : Option (List Byte)) (hs : (0 : Byte) ∉ s.getD []) (hl : (escape (s.getD [])).length ≤ 745) :
    Runs (encodeOpt e s) (fun p => p.1.length = 768 ∧ p.2 = escape (s.getD [])) := by
  cases s with
  | some s => exact encode_le he hs hl
  | none =>
    unfold encodeOpt
    rw [wr_ok (by omega), ok_bind]
    have : cstr (e.set 0 0) = .ok [] := by
      cases e with
      | nil => simp at he
      | cons a e => rfl
    rw [this, ok_bind]
    exact .ok ⟨by simpa using he, rfl⟩

theorem cstr_mem (s : List Byte) (h : (0 : Byte) ∈ s) : cstr s = .ok (upToNul s) := by
  unfold cstr upToNul
  rw [if_pos h]


theorem ntariff_runs {b : XBuf} {c : Nat} {t : List Byte} (hb : Text b c t) (n : NRecord) (h1 : (fmtInt n.tariff).length ≤ 11)
    (h2 : (fmtInt n.device).length ≤ 11) (hl : t.length + 90 < c) :
    Runs (ntariffXml b n) (fun b => Text b c (t ++ (if n.tariff ≥ 0 then [(cs! "Tariff", fmtInt n.tariff), (cs! "Device", fmtInt n.device)] else []).flatMap leaf)) := by
  have e1 : ∀ x, cs! "        <Tariff>" ++ x ++ cs! "</Tariff>\n" = leaf (cs! "Tariff", x) := fun x => by simp [leaf]
  have e2 : ∀ x, cs! "        <Device>" ++ x ++ cs! "</Device>\n" = leaf (cs! "Device", x) := fun x => by simp [leaf]
  unfold ntariffXml
  by_cases h : n.tariff ≥ 0
  · rw [if_pos h, if_pos h, e1, e2]
    refine put_bind hb.holds _ (by simp [leaf_length]; omega) fun b1 hb1 => ?_
    refine put_last hb1.holds _ (by simp [leaf_length]; omega) fun b2 hb2 => ?_
    simpa using hb2
  · rw [if_neg h, if_neg h]
    exact .ok (by simpa using hb)

theorem nvalue_runs {b : XBuf} {c : Nat} {t : List Byte} (hb : Text b c t) (e : List Byte) (he : e.length = 768) (n : NRecord)
    (hv : ∀ s k, n.value = .str s k → (0 : Byte) ∈ s) (hl : (normText n).length ≤ 745) (hc : t.length + (normText n).length + 30 < c) :
    Runs (nvalueXml e b n.value) (fun p => p.2.length = 768 ∧ Text p.1 c (t ++ leaf (cs! "Value", normText n))) := by
  have e1 : ∀ x, cs! "        <Value>" ++ x ++ cs! "</Value>\n" = leaf (cs! "Value", x) := fun x => by simp [leaf]
  unfold normText at *
  cases hn : n.value with
  | num x =>
    rw [hn] at hl hc
    dsimp only at hl hc
    simp only [nvalueXml, e1]
    refine put_bind hb.holds _ (by simp only [leaf_length]; simp; omega) fun b1 hb1 => .ok ⟨he, hb1⟩
  | str s k =>
    rw [hn] at hl hc
    dsimp only at hl hc
    simp only [nvalueXml, e1]
    rw [cstr_mem s (hv s k hn), ok_bind]
    refine (encode_le he (upToNul_nonul s) hl).bind fun q hq => ?_
    obtain ⟨e', t'⟩ := q
    obtain ⟨h1, rfl⟩ := hq
    refine put_bind hb.holds _ (by simp only [leaf_length]; simp; omega) fun b1 hb1 => .ok ⟨h1, hb1⟩

/-- The elements inside a normalised record. -/
def normLeaves (n : Option NRecord) : List (List Byte × List Byte) :=
  match n with
  | none => []
  | some n =>
    [(cs! "Function", escape n.function), (cs! "StorageNumber", fmtInt n.storage)] ++
    (if n.tariff ≥ 0 then [(cs! "Tariff", fmtInt n.tariff), (cs! "Device", fmtInt n.device)] else []) ++
    [(cs! "Unit", escape (n.unit.getD [])), (cs! "Quantity", escape (n.quantity.getD [])), (cs! "Value", normText n)]

theorem tariffLeaves_length (n : NRecord) (h1 : (fmtInt n.tariff).length ≤ 11) (h2 : (fmtInt n.device).length ≤ 11) :
    ((if n.tariff ≥ 0 then [(cs! "Tariff", fmtInt n.tariff), (cs! "Device", fmtInt n.device)] else []).flatMap leaf).length ≤ if n.tariff ≥ 0 then 74 else 0 := by
  by_cases h : n.tariff ≥ 0
  · rw [if_pos h, if_pos h]
    simp [leaf_length]
    omega
  · rw [if_neg h, if_neg h]
    simp

theorem normLeaves_length (n : NRecord) (h : NReady n) : ((normLeaves (some n)).flatMap leaf).length ≤ 926 := by
  have h1 := tariffLeaves_length n h.tariff h.device
  have h2 := h.function.2
  have h3 := h.storage
  have h4 := h.terse
  unfold Terse at h4
  simp only [normLeaves, List.flatMap_append, List.length_append]
  generalize hT : (if n.tariff ≥ 0 then [(cs! "Tariff", fmtInt n.tariff), (cs! "Device", fmtInt n.device)] else []).flatMap leaf = T at h1 ⊢
  simp [leaf_length]
  by_cases h : n.tariff ≥ 0
  · rw [if_pos h] at h1 h4; omega
  · rw [if_neg h] at h1 h4; omega

theorem nfields_runs {b : XBuf} {c : Nat} {t : List Byte} (hb : Text b c t) (e : List Byte) (he : e.length = 768) (n : Option NRecord)
    (hn : ∀ m, n = some m → NReady m) (hl : t.length + 940 < c) :
    Runs (nfieldsXml e b n) (fun p => p.2.length = 768 ∧ Text p.1 c (t ++ (normLeaves n).flatMap leaf)) := by
  have e1 : ∀ x, cs! "        <Function>" ++ x ++ cs! "</Function>\n" = leaf (cs! "Function", x) := fun x => by simp [leaf]
  have e2 : ∀ x, cs! "        <StorageNumber>" ++ x ++ cs! "</StorageNumber>\n" = leaf (cs! "StorageNumber", x) := fun x => by simp [leaf]
  have e3 : ∀ x, cs! "        <Unit>" ++ x ++ cs! "</Unit>\n" = leaf (cs! "Unit", x) := fun x => by simp [leaf]
  have e4 : ∀ x, cs! "        <Quantity>" ++ x ++ cs! "</Quantity>\n" = leaf (cs! "Quantity", x) := fun x => by simp [leaf]
  cases n with
  | none => exact .ok ⟨he, by simpa [normLeaves] using hb⟩
  | some n =>
    have h := hn n rfl
    have hf := h.function
    have hst := h.storage
    have hte := h.terse
    unfold Terse at hte
    unfold nfieldsXml
    simp only [e1, e2, e3, e4]
    refine (encode_le he hf.1 (by omega)).bind fun q hq => ?_
    obtain ⟨a1, t1⟩ := q
    obtain ⟨l1, rfl⟩ := hq
    refine put_bind hb.holds _ (by simp [leaf_length]; omega) fun b1 h1 => ?_
    refine put_bind h1.holds _ (by simp [leaf_length]; omega) fun b2 h2 => ?_
    refine (ntariff_runs h2 n h.tariff h.device (by simp [leaf_length]; omega)).bind fun b3 h3 => ?_
    have htl := tariffLeaves_length n h.tariff h.device
    generalize hT : (if n.tariff ≥ 0 then [(cs! "Tariff", fmtInt n.tariff), (cs! "Device", fmtInt n.device)] else []).flatMap leaf = T at h3 htl
    have hT' : (escape (n.unit.getD [])).length + (escape (n.quantity.getD [])).length + (normText n).length + T.length ≤ 745 := by
      by_cases h : n.tariff ≥ 0
      · rw [if_pos h] at hte htl; omega
      · rw [if_neg h] at hte htl; omega
    refine (encodeOpt_le l1 n.unit h.unit (by omega)).bind fun q hq => ?_
    obtain ⟨a2, t2⟩ := q
    obtain ⟨l2, rfl⟩ := hq
    refine put_bind h3.holds _ (by simp [leaf_length]; omega) fun b4 h4 => ?_
    refine (encodeOpt_le l2 n.quantity h.quantity (by omega)).bind fun q hq => ?_
    obtain ⟨a3, t3⟩ := q
    obtain ⟨l3, rfl⟩ := hq
    refine put_bind h4.holds _ (by simp [leaf_length]; omega) fun b5 h5 => ?_
    obtain ⟨p, hp, hp1, hp2⟩ := nvalue_runs h5 a3 l3 n h.value (by omega) (by simp [leaf_length]; omega)
    refine ⟨p, hp, hp1, ?_⟩
    have : (normLeaves (some n)).flatMap leaf = leaf (cs! "Function", escape n.function) ++ leaf (cs! "StorageNumber", fmtInt n.storage) ++ T ++
        leaf (cs! "Unit", escape (n.unit.getD [])) ++ leaf (cs! "Quantity", escape (n.quantity.getD [])) ++ leaf (cs! "Value", normText n) := by
      rw [← hT]
      simp [normLeaves]
    rw [this]
    simpa using hp2

theorem normGroup_render (i : Nat) (n : Option NRecord) : (normGroup i n).render =
    cs! "    <DataRecord id=\"" ++ decDigits i ++ cs! "\">\n" ++ (normLeaves n).flatMap leaf ++ cs! "    </DataRecord>\n\n" := by
  cases n <;> simp [normGroup, normLeaves, Group.render, attr, dec]

/-- One normalised record. -/
theorem nrecord_runs {b : XBuf} {c : Nat} {t : List Byte} (hb : Text b c t) (e : List Byte) (he : e.length = 768) (n : Option NRecord)
    (hn : ∀ m, n = some m → NReady m) (i : Nat) (hi : i < 2 ^ 31) (hl : t.length + 1024 ≤ c) :
    Runs (nrecordXml n i e b) (fun p => p.2.length = 768 ∧ Text p.1 c (t ++ (normGroup i n).render) ∧ (t ++ (normGroup i n).render).length + 12 < c) := by
  have hd := decDigits_31 i hi
  unfold nrecordXml
  refine put_bind hb.holds _ (by simp; omega) fun b1 h1 => ?_
  refine (nfields_runs h1 e he n hn (by simp; omega)).bind fun q hq => ?_
  obtain ⟨b2, e2⟩ := q
  obtain ⟨l2, h2⟩ := hq
  have hlen : ((normLeaves n).flatMap leaf).length ≤ 926 := by
    cases n with
    | none => simp [normLeaves]
    | some n => exact normLeaves_length n (hn n rfl)
  dsimp only at l2 h2 ⊢
  rw [normGroup_render]
  generalize (normLeaves n).flatMap leaf = L at *
  refine put_bind h2.holds _ (by simp; omega) fun b3 h3 => .ok ?_
  refine ⟨l2, by simpa using h3, ?_⟩
  simp
  omega

/-- The record loop. -/
theorem nrecords_runs (junk : Nat → Nat → Byte) (rs : List Record) (start : Nat) (hc : start + rs.length < 2 ^ 31) (e : List Byte) (he : e.length = 768)
    (h : ∀ r ∈ rs, ∀ j, ∃ n leak, parseVariableRecord j r = .ok (n, leak) ∧ ∀ m, n = some m → NReady m)
    (b : XBuf) (t : List Byte) (hb : Roomy b t) :
    Runs (nrecordsXml junk rs start e b) (fun b => ∃ ns, Pointwise (fun r n => ∃ j leak, parseVariableRecord j r = .ok (n, leak)) rs ns ∧
      Roomy b (t ++ ((ns.zipIdx start).map fun p => normGroup p.2 p.1).flatMap Group.render)) := by
  induction rs generalizing start e b t with
  | nil => exact .ok ⟨[], .nil, by simpa using hb⟩
  | cons r rs ih =>
    obtain ⟨c, h1, h2, h3⟩ := hb
    obtain ⟨n, leak, hp, hn⟩ := h r (List.mem_cons_self ..) (junk start)
    have hc' : start + 1 + rs.length < 2 ^ 31 := by simp at hc; omega
    unfold nrecordsXml
    rw [hp, ok_bind]
    dsimp only
    obtain ⟨c', g1, g2, g3⟩ := grow_text (scratch (junk start) 3) h3 h1 (by omega)
    refine (nrecord_runs g3 e he n hn start (by omega) g2).bind fun q hq => ?_
    obtain ⟨b', e'⟩ := q
    obtain ⟨l1, l2, l3⟩ := hq
    dsimp only at l1 l2 l3 ⊢
    obtain ⟨b'', k1, ns, k2, k3⟩ := ih (start + 1) hc' e' l1 (fun r hr => h r (List.mem_cons_of_mem _ hr)) b' _ ⟨c', g1, l3, l2⟩
    refine ⟨b'', k1, n :: ns, .cons ⟨_, _, hp⟩ k2, ?_⟩
    simpa [List.zipIdx_cons] using k3

theorem variableXmlNormalized_runs (junk0 : Nat → Byte) (junk : Nat → Nat → Byte) (v : VarData) (p : List Byte) (hp : productName v.header = .ok p)
    (hc : v.records.length < 2 ^ 31)
    (h : ∀ r ∈ v.records, ∀ j, ∃ n leak, parseVariableRecord j r = .ok (n, leak) ∧ ∀ m, n = some m → NReady m) :
    Runs (variableXmlNormalized junk0 junk v) (fun m => ∃ ns, Pointwise (fun r n => ∃ j leak, parseVariableRecord j r = .ok (n, leak)) v.records ns ∧
      document (slaveGroup v.header p (mediumLookup v.header.medium) :: ns.zipIdx.map fun p => normGroup p.2 p.1) ++ [0] <+: m) := by
  unfold variableXmlNormalized
  refine start_runs _ _ v.header p hp _ _ fun b hb => ?_
  refine (nrecords_runs junk v.records 0 (by omega) _ List.length_replicate h b _ hb).bind fun b' hq => ?_
  obtain ⟨ns, h1, h2⟩ := hq
  refine (close_runs h2).bind fun b'' hb'' => .ok ⟨ns, h1, ?_⟩
  simpa [document] using hb''

end Mbus
