import Verif.Lemmas.XmlExact
import Verif.Props.XmlNorm
/- The XML documents of normalised records of any length. -/
namespace Mbus
open Spec

theorem put_fares {α : Type} {b : XBuf} {r : Room} {full : List Byte} (h : Shows b r full) (s : List Byte) {ns : List Nat} {k : XBuf → C α}
    {P : Room → α → Prop} (hk : ∀ r' b', Shows b' r' (full ++ s) → Fares (k b') (r'.texts ns) P) :
    Fares (b.put s >>= k) (r.texts (s.length :: ns)) P :=
  (put_shows h s).bind hk

theorem encode_exact {e : List Byte} (he : e.length = 768) (s : List Byte) (hs : (0 : Byte) ∉ s) :
    ∃ e', encodeInto e s = .ok (e', escapeInto 768 s) ∧ e'.length = 768 := by
  obtain ⟨⟨e', t⟩, h1, h2, h3⟩ := encode_cut e s he hs
  dsimp only at h2 h3
  exact ⟨e', by rw [h1, h3.exact], h2⟩

theorem encodeOpt_exact {e : List Byte} (he : e.length = 768) (s : Option (List Byte)) (hs : (0 : Byte) ∉ s.getD []) :
    ∃ e', encodeOpt e s = .ok (e', escapeInto 768 (s.getD [])) ∧ e'.length = 768 := by
  cases s with
  | some s => exact encode_exact he s hs
  | none =>
    obtain ⟨⟨e', t⟩, h1, h2, h3⟩ := encodeOpt_le he none hs (by simp [escape])
    dsimp only at h2 h3
    subst h3
    exact ⟨e', h1, h2⟩

/-- The elements inside a normalised record. -/
def cutLeaves (n : Option NRecord) : List (List Byte × List Byte) := (normGroupCut 0 n).leaves

theorem ntariff_fares {b : XBuf} {r : Room} {t : List Byte} (h : Shows b r t) (n : NRecord) :
    Fares (ntariffXml b n) (r.texts ((if n.tariff ≥ 0 then [(cs! "Tariff", fmtInt n.tariff), (cs! "Device", fmtInt n.device)] else []).map fun l => (leaf l).length))
      (fun r' b' => Shows b' r' (t ++ (if n.tariff ≥ 0 then [(cs! "Tariff", fmtInt n.tariff), (cs! "Device", fmtInt n.device)] else []).flatMap leaf)) := by
  have e1 : ∀ x, cs! "        <Tariff>" ++ x ++ cs! "</Tariff>\n" = leaf (cs! "Tariff", x) := fun x => by simp [leaf]
  have e2 : ∀ x, cs! "        <Device>" ++ x ++ cs! "</Device>\n" = leaf (cs! "Device", x) := fun x => by simp [leaf]
  unfold ntariffXml
  by_cases hc : n.tariff ≥ 0
  · rw [if_pos hc, if_pos hc, e1, e2]
    refine put_fares h _ fun r1 b1 h1 => ?_
    simp only [List.map_cons, List.map_nil, texts_one]
    refine (put_shows h1 _).mono fun r2 b2 h2 => ?_
    simpa using h2
  · rw [if_neg hc, if_neg hc]
    exact .ok (by simpa using h)

theorem nvalue_fares {b : XBuf} {r : Room} {t : List Byte} (h : Shows b r t) (e : List Byte) (he : e.length = 768) (n : NRecord)
    (hv : ∀ s k, n.value = .str s k → (0 : Byte) ∈ s) :
    Fares (nvalueXml e b n.value) (r.texts [(leaf (cs! "Value", normTextCut n)).length])
      (fun r' p => p.2.length = 768 ∧ Shows p.1 r' (t ++ leaf (cs! "Value", normTextCut n))) := by
  have e1 : ∀ x, cs! "        <Value>" ++ x ++ cs! "</Value>\n" = leaf (cs! "Value", x) := fun x => by simp [leaf]
  unfold normTextCut
  cases hn : n.value with
  | num x =>
    simp only [nvalueXml, e1]
    exact put_fares h _ fun r1 b1 h1 => .ok ⟨he, h1⟩
  | str s k =>
    simp only [nvalueXml, e1]
    rw [cstr_mem s (hv s k hn), ok_bind]
    obtain ⟨e', h2, h3⟩ := encode_exact he (upToNul s) (upToNul_nonul s)
    rw [h2, ok_bind]
    exact put_fares h _ fun r1 b1 h1 => .ok ⟨h3, h1⟩

theorem nfields_fares {b : XBuf} {r : Room} {t : List Byte} (hb : Shows b r t) (e : List Byte) (he : e.length = 768) (n : Option NRecord)
    (hn : ∀ m, n = some m → NFit m) :
    Fares (nfieldsXml e b n) (r.texts ((cutLeaves n).map fun l => (leaf l).length))
      (fun r' p => p.2.length = 768 ∧ Shows p.1 r' (t ++ (cutLeaves n).flatMap leaf)) := by
  have e1 : ∀ x, cs! "        <Function>" ++ x ++ cs! "</Function>\n" = leaf (cs! "Function", x) := fun x => by simp [leaf]
  have e2 : ∀ x, cs! "        <StorageNumber>" ++ x ++ cs! "</StorageNumber>\n" = leaf (cs! "StorageNumber", x) := fun x => by simp [leaf]
  have e3 : ∀ x, cs! "        <Unit>" ++ x ++ cs! "</Unit>\n" = leaf (cs! "Unit", x) := fun x => by simp [leaf]
  have e4 : ∀ x, cs! "        <Quantity>" ++ x ++ cs! "</Quantity>\n" = leaf (cs! "Quantity", x) := fun x => by simp [leaf]
  cases n with
  | none => exact .ok ⟨he, by simpa [cutLeaves, normGroupCut] using hb⟩
  | some n =>
    have h := hn n rfl
    have hleaves : cutLeaves (some n) = (cs! "Function", escapeInto 768 n.function) :: (cs! "StorageNumber", fmtInt n.storage) ::
        ((if n.tariff ≥ 0 then [(cs! "Tariff", fmtInt n.tariff), (cs! "Device", fmtInt n.device)] else []) ++
        [(cs! "Unit", escapeInto 768 (n.unit.getD [])), (cs! "Quantity", escapeInto 768 (n.quantity.getD [])),
         (cs! "Value", normTextCut n)]) := by
      simp [cutLeaves, normGroupCut]
    rw [hleaves]
    unfold nfieldsXml
    simp only [e1, e2, e3, e4]
    obtain ⟨a1, g1, l1⟩ := encode_exact he n.function h.function.1
    obtain ⟨a2, g2, l2⟩ := encodeOpt_exact l1 n.unit h.unit
    obtain ⟨a3, g3, l3⟩ := encodeOpt_exact l2 n.quantity h.quantity
    rw [g1, ok_bind]
    dsimp only
    rw [List.map_cons, List.map_cons, List.map_append]
    refine put_fares hb _ fun r1 b1 h1 => ?_
    refine put_fares h1 _ fun r2 b2 h2 => ?_
    rw [texts_append]
    refine (ntariff_fares h2 n).bind fun r3 b3 h3 => ?_
    rw [g2, ok_bind]
    dsimp only
    refine put_fares h3 _ fun r4 b4 h4 => ?_
    rw [g3, ok_bind]
    dsimp only
    refine put_fares h4 _ fun r5 b5 h5 => ?_
    refine (nvalue_fares h5 a3 l3 n h.value).mono fun r6 p hp => ⟨hp.1, ?_⟩
    simpa using hp.2

theorem normGroupCut_render (i : Nat) (n : Option NRecord) : (normGroupCut i n).render =
    cs! "    <DataRecord id=\"" ++ decDigits i ++ cs! "\">\n" ++ (cutLeaves n).flatMap leaf ++ cs! "    </DataRecord>\n\n" := by
  cases n <;> simp [normGroupCut, cutLeaves, Group.render, attr, dec]

theorem normGroupCut_lines (i : Nat) (n : Option NRecord) : lineLengths (normGroupCut i n) =
    (cs! "    <DataRecord id=\"" ++ decDigits i ++ cs! "\">\n").length :: ((cutLeaves n).map (fun l => (leaf l).length) ++
      [(cs! "    </DataRecord>\n\n").length]) := by
  cases n <;> simp [normGroupCut, cutLeaves, lineLengths, attr, dec]

theorem nrecord_fares {b : XBuf} {r : Room} {t : List Byte} (hb : Shows b r t) (e : List Byte) (he : e.length = 768) (n : Option NRecord)
    (hn : ∀ m, n = some m → NFit m) (i : Nat) :
    Fares (nrecordXml n i e b) (r.texts (lineLengths (normGroupCut i n)))
      (fun r' p => p.2.length = 768 ∧ Shows p.1 r' (t ++ (normGroupCut i n).render)) := by
  rw [normGroupCut_lines, normGroupCut_render]
  unfold nrecordXml
  refine put_fares hb _ fun r1 b1 h1 => ?_
  rw [texts_append]
  refine (nfields_fares h1 e he n hn).bind fun r2 p hp => ?_
  obtain ⟨b2, e2⟩ := p
  dsimp only at hp ⊢
  refine put_fares hp.2 _ fun r3 b3 h3 => .ok ⟨hp.1, ?_⟩
  simpa using h3

theorem nrecords_fares (junk : Nat → Nat → Byte) (rs : List Record) (start : Nat) (e : List Byte) (he : e.length = 768)
    (h : ∀ r ∈ rs, ∀ j, ∃ n leak, parseVariableRecord j r = .ok (n, leak) ∧ ∀ m, n = some m → NFit m) :
    ∃ ns, Pointwise (fun r n => ∃ j leak, parseVariableRecord j r = .ok (n, leak)) rs ns ∧
      ∀ (b : XBuf) (room : Room) (t : List Byte), Shows b room t → Fares (nrecordsXml junk rs start e b) (room.records ((normGroupsCut start ns).map lineLengths))
        (fun r' b' => Shows b' r' (t ++ (normGroupsCut start ns).flatMap Group.render)) := by
  suffices hh : ∃ ns, Pointwise (fun r n => ∃ j leak, parseVariableRecord j r = .ok (n, leak)) rs ns ∧
      ∀ (e : List Byte), e.length = 768 → ∀ (b : XBuf) (room : Room) (t : List Byte), Shows b room t →
        Fares (nrecordsXml junk rs start e b) (room.records ((normGroupsCut start ns).map lineLengths))
        (fun r' b' => Shows b' r' (t ++ (normGroupsCut start ns).flatMap Group.render)) by
    obtain ⟨ns, h1, h2⟩ := hh
    exact ⟨ns, h1, h2 e he⟩
  clear he
  induction rs generalizing start with
  | nil => exact ⟨[], .nil, fun e he b room t hb => .ok (by simpa [normGroupsCut] using hb)⟩
  | cons r rs ih =>
    obtain ⟨n, leak, hp, hn⟩ := h r (List.mem_cons_self ..) (junk start)
    obtain ⟨ns, h1, h2⟩ := ih (start + 1) (fun r hr => h r (List.mem_cons_of_mem _ hr))
    refine ⟨n :: ns, .cons ⟨_, _, hp⟩ h1, fun e he b room t hb => ?_⟩
    have ec : normGroupsCut start (n :: ns) = normGroupCut start n :: normGroupsCut (start + 1) ns := by simp [normGroupsCut, List.zipIdx_cons]
    rw [ec]
    unfold nrecordsXml
    rw [hp, ok_bind]
    dsimp only
    simp only [List.map_cons, Room.records]
    refine (nrecord_fares (grow_shows (scratch (junk start) 3) hb) e he n hn start).bind fun r' p hp => ?_
    obtain ⟨b', e'⟩ := p
    dsimp only at hp ⊢
    refine (h2 e' hp.1 b' _ _ hp.2).mono fun r2 b2 hb2 => ?_
    simpa using hb2

theorem variableXmlNormalized_fares (junk0 : Nat → Byte) (junk : Nat → Nat → Byte) (v : VarData) (p : List Byte) (hp : productName v.header = .ok p)
    (h : ∀ r ∈ v.records, ∀ j, ∃ n leak, parseVariableRecord j r = .ok (n, leak) ∧ ∀ m, n = some m → NFit m) :
    ∃ ns, Pointwise (fun r n => ∃ j leak, parseVariableRecord j r = .ok (n, leak)) v.records ns ∧
      Meets (variableXmlNormalized junk0 junk v) (fun m => m)
        (document (slaveGroup v.header p (mediumLookup v.header.medium) :: normGroupsCut 0 ns))
        (xmlFate (startLength (slaveGroup v.header p (mediumLookup v.header.medium))) ((normGroupsCut 0 ns).map lineLengths)) := by
  obtain ⟨ns, h1, h2⟩ := nrecords_fares junk v.records 0 (List.replicate 768 0) List.length_replicate h
  refine ⟨ns, h1, fares_meets ?_⟩
  unfold variableXmlNormalized
  refine start_fares _ _ v.header p hp _ _ _ fun b hb => ?_
  refine (h2 b _ _ hb).bind fun room b' hb' => ?_
  refine (close_fares hb' (fun m => m)).mono fun r a ha => ?_
  simpa [document] using ha

end Mbus
