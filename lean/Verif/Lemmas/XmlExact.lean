import Verif.Spec.XmlExact
import Verif.Lemmas.XmlOverflow
import Verif.Lemmas.XmlNorm
/- The XML documents of records of any length. -/
namespace Mbus
open Spec

theorem escapeInto_eq (s : List Byte) : ∀ room, room ≤ 768 → ∃ k, k ≤ s.length ∧ escapeInto room s = escape (s.take k) ∧
    (k < s.length → room < (escapeInto room s).length + 7) ∧ ∀ j, j < k → (escape (s.take j)).length + 7 ≤ room := by
  induction s with
  | nil => exact fun room _ => ⟨0, by simp, by simp [escapeInto, escape], by simp, by simp⟩
  | cons c s ih =>
    intro room hr
    unfold escapeInto
    by_cases h : room < 7
    · rw [if_pos h]
      exact ⟨0, by simp, by simp [escape], by simp; omega, by simp⟩
    · rw [if_neg h]
      have h6 : (escape1 c).length ≤ 6 := by revert c; exact forall_byte (by decide +kernel)
      obtain ⟨k, h1, h2, h3, h4⟩ := ih (room - (escape1 c).length) (by omega)
      refine ⟨k + 1, by simp; omega, by simp [h2, escape], ?_, ?_⟩
      · intro hk
        have := h3 (by simp at hk; omega)
        simp only [List.length_append]
        omega
      · intro j hj
        cases j with
        | zero => simp [escape]; omega
        | succ j =>
          have := h4 j (by omega)
          simp only [escape, List.take_succ_cons, List.flatMap_cons, List.length_append] at this ⊢
          omega

theorem EscapedCut.exact {s e : List Byte} (h : EscapedCut s e) : e = escapeInto 768 s := by
  refine h.same ?_
  obtain ⟨k, h1, h2, h3, h4⟩ := escapeInto_eq s 768 (by omega)
  refine ⟨k, h1, h2, ?_, fun h => by have := h3 h; omega, fun j hj => by have := h4 j hj; omega⟩
  rw [h2]
  cases k with
  | zero => simp [escape]
  | succ k =>
    have := h4 k (by omega)
    have e : escape (s.take (k + 1)) = escape (s.take k) ++ escape1 s[k] := by
      rw [List.take_succ_eq_append_getElem (by omega), escape, List.flatMap_append]
      simp [escape]
    have h6 : ∀ c, (escape1 c).length ≤ 6 := forall_byte (by decide +kernel)
    have := h6 s[k]
    rw [e, List.length_append]
    omega

/-- The buffer `b` after the characters `full` were printed, of which some may have been dropped. -/
structure Shows (b : XBuf) (r : Room) (full : List Byte) : Prop where
  size : b.mem.length = r.size
  len : b.len = full.length
  rlen : r.len = full.length
  none : r.cut = .none → full ++ [0] <+: b.mem
  some : ∀ c, r.cut = .some c → c < full.length ∧ full.take c ++ [0] <+: b.mem

/-- `x` fares as the account of the room says. -/
def Fares {α : Type} (x : C α) (o : Option Room) (P : Room → α → Prop) : Prop :=
  (o = none ∧ ∃ n i, x = .error (.oobWrite n i)) ∨ ∃ r a, o = some r ∧ x = .ok a ∧ P r a

theorem Fares.ok {α : Type} {r : Room} {a : α} {P : Room → α → Prop} (h : P r a) : Fares (.ok a) (some r) P := .inr ⟨r, a, rfl, rfl, h⟩

theorem Fares.bind {α β : Type} {x : C α} {k : α → C β} {o : Option Room} {ro : Room → Option Room} {P : Room → α → Prop} {Q : Room → β → Prop}
    (h : Fares x o P) (hk : ∀ r a, P r a → Fares (k a) (ro r) Q) : Fares (x >>= k) (o.bind ro) Q := by
  rcases h with ⟨rfl, n, i, rfl⟩ | ⟨r, a, rfl, rfl, h⟩
  · exact .inl ⟨rfl, n, i, rfl⟩
  · rw [ok_bind]
    exact hk r a h

theorem Fares.mono {α : Type} {x : C α} {o : Option Room} {P Q : Room → α → Prop} (h : Fares x o P) (hk : ∀ r a, P r a → Q r a) : Fares x o Q := by
  rcases h with ⟨h1, h2⟩ | ⟨r, a, h1, h2, h3⟩
  · exact .inl ⟨h1, h2⟩
  · exact .inr ⟨r, a, h1, h2, hk r a h3⟩

theorem prefix_take {x m : List Byte} (h : x <+: m) (n : Nat) (hn : x.length ≤ n) (y : List Byte) : x <+: m.take n ++ y := by
  obtain ⟨z, rfl⟩ := h
  rw [List.take_append, List.take_of_length_le hn, List.append_assoc]
  exact List.prefix_append _ _

/-- Printing a piece. -/
theorem put_shows {b : XBuf} {r : Room} {full : List Byte} (h : Shows b r full) (s : List Byte) :
    Fares (b.put s) (r.text s.length) (fun r' b' => Shows b' r' (full ++ s)) := by
  obtain ⟨h1, h2, h3, h4, h5⟩ := h
  obtain ⟨size, len, cut⟩ := r
  dsimp only at h1 h3 h4 h5
  subst h3
  unfold XBuf.put Room.text
  dsimp only
  rw [h1, h2]
  by_cases hc : size < full.length
  · rw [if_pos hc, if_pos hc]
    exact .inl ⟨rfl, _, _, rfl⟩
  · rw [if_neg hc, if_neg hc]
    unfold snprintfAt
    by_cases h0 : size - full.length = 0
    · rw [if_pos h0, ok_bind]
      refine .ok ⟨h1, by simp, by simp, ?_, ?_⟩
      · intro hn
        dsimp only at hn ⊢
        cases cut with
        | none =>
          have := (h4 rfl).length_le
          simp at this
          omega
        | some c => cases hn
      · intro c hn
        dsimp only at hn ⊢
        cases cut with
        | none =>
          have := (h4 rfl).length_le
          simp at this
          omega
        | some d =>
          injection hn with hn
          subst hn
          obtain ⟨g1, g2⟩ := h5 d rfl
          refine ⟨by simp; omega, ?_⟩
          rw [List.take_append_of_le_length (by omega)]
          exact g2
    · rw [if_neg h0]
      dsimp only
      have hl : full.length + (s.take (size - full.length - 1) ++ [0]).length ≤ b.mem.length := by
        simp only [List.length_append, List.length_take, List.length_cons, List.length_nil]
        omega
      rw [if_pos hl, ok_bind]
      refine .ok ⟨?_, by simp, by simp, ?_, ?_⟩
      · dsimp only
        rw [List.length_append, List.length_append, List.length_take, List.length_drop]
        omega
      · intro hn
        dsimp only at hn ⊢
        cases cut with
        | some c => cases hn
        | none =>
          by_cases hs : full.length + s.length < size
          · obtain ⟨z, hz⟩ := (List.prefix_append full [0]).trans (h4 rfl)
            rw [List.take_of_length_le (l := s) (by omega), ← hz]
            simp
          · rw [if_neg hs] at hn; cases hn
      · intro c hn
        dsimp only at hn ⊢
        cases cut with
        | some d =>
          injection hn with hn
          subst hn
          obtain ⟨g1, g2⟩ := h5 d rfl
          refine ⟨by simp; omega, ?_⟩
          rw [List.take_append_of_le_length (by omega), List.append_assoc]
          exact prefix_take g2 _ (by simp; omega) _
        | none =>
          by_cases hs : full.length + s.length < size
          · rw [if_pos hs] at hn; cases hn
          · rw [if_neg hs] at hn
            injection hn with hn
            subst hn
            refine ⟨by simp; omega, ?_⟩
            obtain ⟨z, hz⟩ := (List.prefix_append full [0]).trans (h4 rfl)
            rw [← hz, List.take_append, List.take_of_length_le (l := full) (by omega), show size - 1 - full.length = size - full.length - 1 by omega]
            simp

theorem grow_shows {b : XBuf} {r : Room} {full : List Byte} (junk : Nat → Byte) (h : Shows b r full) : Shows (b.grow junk) r.double full := by
  obtain ⟨h1, h2, h3, h4, h5⟩ := h
  unfold XBuf.grow Room.double
  rw [h1, h2, h3]
  by_cases hc : full.length ≤ r.size ∧ r.size - full.length < 1024
  · rw [if_pos hc, if_pos ⟨hc.1, by omega⟩]
    refine ⟨by simp [h1]; omega, rfl, rfl, fun h => ?_, fun c h => ?_⟩
    · exact (h4 h).trans (List.prefix_append _ _)
    · exact ⟨(h5 c h).1, (h5 c h).2.trans (List.prefix_append _ _)⟩
  · rw [if_neg hc, if_neg (by omega)]
    exact ⟨h1, h2, h3, h4, h5⟩

theorem roomy_shows {b : XBuf} {n : Nat} {t : List Byte} (h : Text b n t) : Shows b ⟨n, t.length, none⟩ t :=
  ⟨h.1, h.2.1, rfl, fun _ => h.2.2, fun _ h => nomatch h⟩

theorem records_append (r : Room) (xs ys : List (List Nat)) : r.records (xs ++ ys) = (r.records xs).bind fun r => r.records ys := by
  induction xs generalizing r with
  | nil => rfl
  | cons x xs ih =>
    simp only [List.cons_append, Room.records, Option.bind_assoc]
    congr 1
    funext r
    exact ih r

theorem texts_one (r : Room) (n : Nat) : r.texts [n] = r.text n := by
  simp [Room.texts]

theorem texts_append (r : Room) (xs ys : List Nat) : r.texts (xs ++ ys) = (r.texts xs).bind fun r => r.texts ys := by
  induction xs generalizing r with
  | nil => rfl
  | cons x xs ih =>
    simp only [List.cons_append, Room.texts, Option.bind_assoc]
    congr 1
    funext r
    exact ih r

/-- What is needed to print an item. -/
def Fit (it : Item) : Prop := Printable it.1 it.2.1 ∧ StampOk it.2.2

theorem recordGroupCut_raw (id : Nat) (frame : Option Nat) (r : Record) (u : List Byte) (stamp : Option (List Byte)) :
    recordGroupCut id frame r u stamp = rawGroup id frame r (escapeInto 768 u) (escapeInto 768 (upToNul (shown r))) stamp := rfl

theorem recordXml_exact (junk : Nat → Byte) (it : Item) (h : Fit it) (id : Nat) (hid : id < 2 ^ 31) (frame : Option Nat)
    (hf : ∀ k, frame = some k → k < 2 ^ 31) :
    recordXml junk it.1 it.2.2 id (frameArg frame) = .ok (recordGroupCut id frame it.1 it.2.1 it.2.2).render := by
  obtain ⟨ue, ve, hue, hve, he⟩ := recordXml_runs junk it.1 it.2.1 h.1 it.2.2 h.2 id hid frame hf
  rw [he, recordGroupCut_raw, hue.exact, hve.exact]

theorem recordsXml_fares (junk : Nat → Nat → Byte) (frame : Option Nat) (hf : ∀ k, frame = some k → k < 2 ^ 31) (its : List Item)
    (h : ∀ it ∈ its, Fit it) (start : Nat) (hc : start + its.length < 2 ^ 31) (b : XBuf) (room : Room) (t : List Byte) (hb : Shows b room t) :
    Fares (recordsXml junk (frameArg frame) (its.map fun it => (it.1, it.2.2)) start b) (room.records (whole (recordGroupsCut frame start its)))
      (fun room' p => p.2 = ((start + its.length : Nat) : Int) ∧ Shows p.1 room' (t ++ (recordGroupsCut frame start its).flatMap Group.render)) := by
  induction its generalizing start b t room with
  | nil => exact .ok ⟨rfl, by simpa [recordGroupsCut] using hb⟩
  | cons it its ih =>
    have hc' : start + 1 + its.length < 2 ^ 31 := by simp at hc; omega
    obtain ⟨r, u, stamp⟩ := it
    have e1 := recordXml_exact (junk ((start : Int)).toNat) (r, u, stamp) (h _ (List.mem_cons_self ..)) start (by omega) frame hf
    dsimp only at e1
    simp only [List.map_cons, recordsXml, recordGroupsCut, whole, Room.records, texts_one]
    rw [e1, ok_bind]
    refine (put_shows (grow_shows (scratch (junk ((start : Int)).toNat) 3) hb) _).bind fun room' b' hb' => ?_
    have : ((start : Int) + 1) = ((start + 1 : Nat) : Int) := by simp
    rw [this, int32_nat _ (by omega), ok_bind]
    refine (ih (fun x hx => h x (List.mem_cons_of_mem _ hx)) (start + 1) (by omega) b' _ _ hb').mono fun room2 p hp => ?_
    refine ⟨?_, ?_⟩
    · rw [hp.1]; simp; omega
    · simpa using hp.2

/-- The end of a document. -/
theorem close_fares {α : Type} {b : XBuf} {room : Room} {t : List Byte} (h : Shows b room t) (done : List Byte → α) :
    Fares (b.put (cs! "</MBusData>\n") >>= fun b => (.ok (done b.mem) : C α)) (room.text 12)
      (fun r a => ∃ b', Shows b' r (t ++ cs! "</MBusData>\n") ∧ a = done b'.mem) := by
  have h2 := put_shows h (cs! "</MBusData>\n")
  rcases h2 with ⟨h1, n, i, h2⟩ | ⟨r, b', h1, h2, h3⟩
  · rw [h2]
    exact .inl ⟨h1, n, i, rfl⟩
  · rw [h2, ok_bind]
    exact .inr ⟨r, _, h1, rfl, b', h3, rfl⟩

theorem fares_meets {α : Type} {x : C α} {done : List Byte → α} {doc : List Byte} {start : Nat} {nss : List (List Nat)}
    (h : Fares x (((Room.mk 8192 start none).records nss).bind fun r => r.text 12) (fun r a => ∃ b, Shows b r doc ∧ a = done b.mem)) :
    Meets x done doc (xmlFate start nss) := by
  unfold xmlFate
  cases hr : (Room.mk 8192 start none).records nss with
  | none =>
    rw [hr] at h
    rcases h with ⟨_, h⟩ | ⟨_, _, h, _⟩
    · exact h
    · cases h
  | some r =>
    rw [hr] at h
    simp only [Option.bind_some] at h
    cases ht : r.text 12 with
    | none =>
      rw [ht] at h
      dsimp only
      rw [ht]
      rcases h with ⟨_, h⟩ | ⟨_, _, h, _⟩
      · exact h
      · cases h
    | some q =>
      rw [ht] at h
      dsimp only
      rw [ht]
      dsimp only
      rcases h with ⟨h, _⟩ | ⟨_, _, h, rfl, b, hb, rfl⟩
      · cases h
      · injection h with h
        subst h
        cases hq : q.cut with
        | none => exact ⟨_, rfl, hb.none hq⟩
        | some c => exact ⟨_, rfl, hb.some c hq⟩

/-- Start of a document with the slave information. -/
theorem start_fares {α : Type} (junk junk0 : Nat → Byte) (h : VarHeader) (p : List Byte) (hp : productName h = .ok p) (k : XBuf → C α)
    (o : Option Room) (P : Room → α → Prop) (hk : ∀ b, Shows b ⟨8192, startLength (slaveGroup h p (mediumLookup h.medium)), none⟩
      (cs! "<?xml version=\"1.0\" encoding=\"ISO-8859-1\"?>\n<MBusData>\n\n" ++ (slaveGroup h p (mediumLookup h.medium)).render) → Fares (k b) o P) :
    Fares (do
      let b : XBuf := ⟨malloc junk 8192, 0⟩
      let b ← b.put XML_PI
      let b ← b.put (cs! "<MBusData>\n\n")
      let t ← headerXml junk0 h
      let b ← b.put t
      k b) o P := by
  obtain ⟨p', hp', h1, h2, h3⟩ := headerXml_runs junk0 h
  rw [hp] at hp'
  injection hp' with hp'
  subst hp'
  obtain ⟨b1, e1, hb1⟩ := put_runs (holds_new junk 8192) XML_PI (by simp [XML_PI])
  obtain ⟨b2, e2, hb2⟩ := put_runs hb1.holds (cs! "<MBusData>\n\n") (by simp [XML_PI])
  obtain ⟨b3, e3, hb3⟩ := put_runs hb2.holds (slaveGroup h p (mediumLookup h.medium)).render (by simp [XML_PI]; omega)
  have hb3' : Text b3 8192 (cs! "<?xml version=\"1.0\" encoding=\"ISO-8859-1\"?>\n<MBusData>\n\n" ++
      (slaveGroup h p (mediumLookup h.medium)).render) := by simpa [XML_PI] using hb3
  dsimp only
  rw [e1, ok_bind, e2, ok_bind, h1, ok_bind, e3, ok_bind]
  have := roomy_shows hb3'
  rw [List.length_append] at this
  exact hk b3 this

theorem variableXml_fares (junk0 : Nat → Byte) (junk : Nat → Nat → Byte) (h : VarHeader) (p : List Byte) (hp : productName h = .ok p)
    (its : List Item) (hr : ∀ it ∈ its, Fit it) (hc : its.length < 2 ^ 31) :
    Meets (variableXml junk0 junk h (its.map fun it => (it.1, it.2.2))) (fun m => m)
      (document (slaveGroup h p (mediumLookup h.medium) :: recordGroupsCut none 0 its))
      (xmlFate (startLength (slaveGroup h p (mediumLookup h.medium))) (whole (recordGroupsCut none 0 its))) := by
  refine fares_meets ?_
  unfold variableXml
  refine start_fares _ _ h p hp _ _ _ fun b hb => ?_
  refine (recordsXml_fares junk none (by simp) its hr 0 (by omega) b _ _ hb).bind fun room q hq => ?_
  obtain ⟨b', cnt⟩ := q
  refine (close_fares hq.2 (fun m => m)).mono fun r a ha => ?_
  simpa [document] using ha

theorem chainXml_fares (junk : Nat → Nat → Byte) (ts : List Telegram) (tss : List (List Item)) (hp : Pointwise ItemsOf ts tss)
    (hr : ∀ its ∈ tss, ∀ it ∈ its, Fit it) (x : FrameData) (freed : Bool) (cnt k : Nat) (hc : cnt + total tss < 2 ^ 31)
    (hk : k + tss.length < 2 ^ 31) (b : XBuf) (room : Room) (t : List Byte) (hb : Shows b room t) :
    Fares (chainXml junk ts x freed cnt k b) ((room.records (whole (telegramGroupsCut cnt k tss))).bind fun r => r.text 12)
      (fun r o => ∃ b', Shows b' r (t ++ (telegramGroupsCut cnt k tss).flatMap Group.render ++ cs! "</MBusData>\n") ∧ o = ⟨some b'.mem, false, []⟩) := by
  induction hp generalizing x freed cnt k b t room with
  | nil =>
    refine (close_fares hb (fun m => (⟨some m, false, []⟩ : XmlOut))).mono fun r a ha => ?_
    simpa [telegramGroupsCut] using ha
  | @cons tel its ts tss hi _ ih =>
    obtain ⟨f, stamp⟩ := tel
    obtain ⟨⟨h, hreads⟩, hst⟩ := hi
    obtain ⟨v, _, hv, hparse, _⟩ := hreads.any x
    have hc1 : cnt + its.length + total tss < 2 ^ 31 := by simp [total] at hc ⊢; omega
    have hk1 : k + 1 + tss.length < 2 ^ 31 := by simp at hk; omega
    unfold chainXml
    dsimp only at hst hparse
    rw [hparse, ok_bind]
    dsimp only
    rw [if_neg (by decide)]
    have e : (freed && decide (DATA_VARIABLE ≠ DATA_VARIABLE)) = false := by simp
    rw [e, if_neg (by decide), hv, items_map its stamp hst]
    have ew : whole (telegramGroupsCut cnt k (its :: tss)) = whole (recordGroupsCut (some k) cnt its) ++ whole (telegramGroupsCut (cnt + its.length) (k + 1) tss) := by
      simp [whole, telegramGroupsCut]
    rw [ew, records_append, Option.bind_assoc]
    refine (recordsXml_fares junk (some k) (fun j h => by injection h with h; omega) its (hr its (List.mem_cons_self ..)) cnt (by omega) b _ t
      hb).bind fun room' q hq => ?_
    obtain ⟨b', cnt'⟩ := q
    obtain ⟨rfl, hb'⟩ := hq
    dsimp only at hb' ⊢
    have : ((k : Int) + 1) = ((k + 1 : Nat) : Int) := by simp
    rw [this, int32_nat _ (by omega), ok_bind]
    refine (ih (fun i hi => hr i (List.mem_cons_of_mem _ hi)) { x with type := DATA_VARIABLE, var := { v with records := [] } }
      (decide (its.map (·.1) ≠ [])) (cnt + its.length) (k + 1) hc1 hk1 b' _ _ hb').mono fun r o ho => ?_
    simpa [telegramGroupsCut] using ho

theorem frameXml_fares (junk0 : Nat → Byte) (junk : Nat → Nat → Byte) (t : Telegram) (ts : List Telegram) (its : List Item)
    (tss : List (List Item)) (h : VarHeader) (p : List Byte) (hp : productName h = .ok p) (hread : Reads t.1 h (its.map (·.1)))
    (hst : ∀ it ∈ its, it.2.2 = t.2) (hi : Pointwise ItemsOf ts tss) (hr : ∀ i ∈ its :: tss, ∀ it ∈ i, Fit it)
    (hc : total (its :: tss) < 2 ^ 31) (hk : (its :: tss).length < 2 ^ 31) :
    Meets (frameXml junk0 junk t ts) (fun m => ⟨some m, false, []⟩)
      (document (slaveGroup h p (mediumLookup h.medium) :: readoutGroupsCut (its :: tss)))
      (xmlFate (startLength (slaveGroup h p (mediumLookup h.medium))) (whole (readoutGroupsCut (its :: tss)))) := by
  obtain ⟨v, hv1, hv, hparse, _⟩ := hread.any FrameData.new
  have hc1 : its.length + total tss < 2 ^ 31 := by simpa [total] using hc
  have hk1 : 1 + tss.length < 2 ^ 31 := by simp at hk; omega
  subst hv1
  refine fares_meets ?_
  unfold frameXml
  rw [hparse, ok_bind]
  dsimp only
  rw [if_neg (by decide), if_neg (by decide), if_neg (by decide), if_pos rfl, hv, items_map its t.2 hst]
  refine start_fares _ _ v.header p hp _ _ _ fun b hb => ?_
  cases hi with
  | nil =>
    have e : (if List.isEmpty ([] : List Telegram) = true then (-1 : Int) else 0) = frameArg none := rfl
    rw [e]
    refine (recordsXml_fares junk none (by simp) its (hr its (List.mem_cons_self ..)) 0 (by omega) b _ _ hb).bind fun room q hq => ?_
    obtain ⟨b', cnt⟩ := q
    obtain ⟨rfl, hb'⟩ := hq
    dsimp only at hb' ⊢
    have e2 : int32 (frameArg none + 1) = .ok 0 := rfl
    rw [e2, ok_bind]
    refine (close_fares hb' (fun m => (⟨some m, false, []⟩ : XmlOut))).mono fun r a ha => ?_
    simpa [document, readoutGroupsCut] using ha
  | @cons t2 i2 ts2 tss2 hi2 hi3 =>
    have e : (if List.isEmpty (t2 :: ts2) = true then (-1 : Int) else 0) = frameArg (some 0) := rfl
    rw [e]
    have ew : whole (readoutGroupsCut (its :: i2 :: tss2)) = whole (recordGroupsCut (some 0) 0 its) ++ whole (telegramGroupsCut (0 + its.length) 1 (i2 :: tss2)) := by
      simp [whole, readoutGroupsCut, telegramGroupsCut]
    rw [ew, records_append, Option.bind_assoc]
    refine (recordsXml_fares junk (some 0) (by simp) its (hr its (List.mem_cons_self ..)) 0 (by omega) b _ _ hb).bind fun room q hq => ?_
    obtain ⟨b', cnt⟩ := q
    obtain ⟨rfl, hb'⟩ := hq
    dsimp only at hb' ⊢
    have e2 : int32 (frameArg (some 0) + 1) = .ok ((1 : Nat) : Int) := rfl
    rw [e2, ok_bind]
    refine (chainXml_fares junk (t2 :: ts2) (i2 :: tss2) (.cons hi2 hi3) (fun i hi => hr i (List.mem_cons_of_mem _ hi))
      { FrameData.new with type := DATA_VARIABLE, var := { v with records := [] } } (decide (its.map (·.1) ≠ [])) (0 + its.length) 1
      (by omega) hk1 b' _ _ hb').mono fun r o ho => ?_
    simpa [document, readoutGroupsCut, telegramGroupsCut] using ho

end Mbus
