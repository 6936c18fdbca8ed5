import Verif.Model.Tools
/-
The tools of Model/Tools.lean with the option -d: the same programs, with the additional text that is printed on standard output under
`if (debug)`.  Option -d also registers the event callbacks (Model/Events.lean), which write to standard error.
-/
namespace Mbus

/-- `if (debug) printf(...)` -/
def noteIf (d : Bool) (text : List Byte) : List Line := if d then [.note text] else []

/-- mbus-serial-request-data.c:21-45 and the same function in the multi-reply tools, mbus-serial-set-address.c and
mbus-serial-scan-secondary.c: `init_slaves` with its debug output (`__PRETTY_FUNCTION__` is the name of the function) -/
def initSlavesD {σ : Type} (d : Bool) (o : Ops σ) (s : σ) (second : Int) : C (List Line × Bool × σ) := do
  let n1 := noteIf d (cs! "init_slaves: debug: sending init frame #1\n")
  let (r, s) ← sendPing o s 0xFD true
  if r = -1 then .ok (n1, false, s)
  else do
    let n2 := noteIf d (cs! "init_slaves: debug: sending init frame #2\n")
    let (r, s) ← sendPing o s second true
    if r = -1 then .ok (n1 ++ n2, false, s) else .ok (n1 ++ n2, true, s)

/-- mbus-serial-scan.c:24-44, mbus-tcp-scan.c:24-44: the loop of `ping_address` with its debug output -/
def pingLoopD {σ : Type} (d : Bool) (o : Ops σ) (address : Int) : (n : Nat) → σ → Frame → (ret : Int) → C (List Line × Int × Frame × σ)
  | 0, s, reply, ret => .ok ([], ret, reply, s)
  | n + 1, s, reply, _ => do
    let note := noteIf d (fmtInt address ++ cs! " ")
    let (r, s) ← sendPing o s address false
    if r = -1 then .ok (note, RECV_ERROR, reply, s)
    else do
      let (ret, reply, s) ← o.recv s reply
      if ret ≠ RECV_TIMEOUT then .ok (note, ret, reply, s)
      else do
        let (notes, q) ← pingLoopD d o address n s reply ret
        .ok (note ++ notes, q)

/-- mbus-serial-scan.c:146-174, mbus-tcp-scan.c:126-154: the loop body of the scan for one address -/
def scanAddressD {σ : Type} (d : Bool) (o : Ops σ) (st : Settings) (s : σ) (address : Int) : C (List Line × σ) := do
  let (notes, ret, reply, s) ← pingLoopD d o address (st.maxSearchRetry + 1).toNat s Frame.zero RECV_ERROR
  if ret = RECV_TIMEOUT then .ok (notes, s)
  else if ret = RECV_INVALID then do
    let (_, s) ← o.purge s
    .ok (notes ++ [.collision address], s)
  else if reply.type = TYPE_ACK then do
    let (p, s) ← o.purge s
    if p ≠ 0 then .ok (notes ++ [.collision address], s) else .ok (notes ++ [.found address], s)
  else .ok (notes, s)

/-- mbus-serial-scan.c:144-175, mbus-tcp-scan.c:124-155 -/
def scanFromD {σ : Type} (d : Bool) (o : Ops σ) (st : Settings) : (n : Nat) → (a : Nat) → σ → C (List Line × σ)
  | 0, _, s => .ok ([], s)
  | n + 1, a, s => do
    let (l, s) ← scanAddressD d o st s a
    let (ls, s) ← scanFromD d o st n (a + 1) s
    .ok (l ++ ls, s)

/-- mbus-serial-scan.c:129-179, mbus-tcp-scan.c:116-159 -/
def scanToolD {σ : Type} (d : Bool) (o : Ops σ) (st : Settings) (s : σ) (retries : Int) : C (Exit σ) :=
  match setOption st 1 retries with
  | (r, st) =>
    if r = -1 then .ok ⟨1, [], s⟩
    else do
      let (ls, s) ← scanFromD d o st (MAX_PRIMARY_SLAVES + 1) 0 s
      .ok ⟨0, noteIf d (cs! "Scanning primary addresses:\n") ++ ls, s⟩

/-- `if (debug) mbus_frame_print(&reply);` for a reply with its successors -/
def chainIf (d : Bool) (fs : List Frame) : List Line := if d then [.chain fs] else []

/-- mbus-serial-request-data.c:169-227, mbus-tcp-request-data.c:104-161.  (Printing recomputes length and checksum of the frame, which
`mbus_frame_data_parse` does not read.) -/
def requestFromD {σ : Type} (d : Bool) (junk0 : Nat → Byte) (junk : Nat → Nat → Byte) (stamp : Option (List Byte)) (o : Ops σ) (s : σ) (address : Int) :
    C (Exit σ) := do
  let (r, s) ← sendRequest o s address
  if r = -1 then .ok ⟨1, [], s⟩
  else do
    let (rc, reply, s) ← o.recv s Frame.zero
    if rc ≠ RECV_OK then .ok ⟨1, [], s⟩
    else do
      let (pr, x) ← frameDataParse reply FrameData.new
      if pr = -1 then .ok ⟨1, chainIf d [reply], s⟩
      else do
        let m ← frameDataXml junk0 junk x (x.var.records.map fun _ => stamp)
        match m with
        | none => .ok ⟨1, chainIf d [reply], s⟩
        | some m => do
          let t ← cstr m
          .ok ⟨0, chainIf d [reply] ++ [.xml t], s⟩

/-- mbus-serial-request-data.c:123-128 -/
def maybeInitD {σ : Type} (d init : Bool) (o : Ops σ) (s : σ) : C (List Line × Bool × σ) :=
  if init then initSlavesD d o s 0xFD else .ok ([], true, s)

/-- mbus-tcp-request-data.c:80-163 (`init = false`), mbus-serial-request-data.c:123-228 (`init = true`) -/
def requestToolD {σ : Type} (d init : Bool) (junk0 : Nat → Byte) (junk : Nat → Nat → Byte) (stamp : Option (List Byte)) (o : Ops σ) (s : σ)
    (addr : List Byte) : C (Exit σ) := do
  let (notes, ok, s) ← maybeInitD d init o s
  if ok = false then .ok ⟨1, notes, s⟩
  else do
    let (a, s) ← reach o s addr
    match a with
    | none => .ok ⟨1, notes, s⟩
    | some a => do
      let e ← requestFromD d junk0 junk stamp o s a
      .ok ⟨e.code, notes ++ e.out, e.state⟩

/-- mbus-serial-request-data-multi-reply.c:133-217, mbus-tcp-request-data-multi-reply.c:127-212.  (Printing recomputes length and
checksum of the frames, which `mbus_frame_xml` does not read.) -/
def multiToolD {σ : Type} (d : Bool) (junk0 : Nat → Byte) (junk : Nat → Nat → Byte) (stamps : Nat → Option (List Byte)) (o : Ops σ) (st : Settings) (s : σ)
    (maxFrames : Int) (addr : List Byte) : C (Exit σ) := do
  let (notes, ok, s) ← initSlavesD d o s 0xFD
  if ok = false then .ok ⟨1, notes, s⟩
  else do
    let (a, s) ← reach o s addr
    match a with
    | none => .ok ⟨1, notes, s⟩
    | some a => do
      let r ← sendrecvRequest o st s a Frame.zero maxFrames
      if r.code ≠ 0 then .ok ⟨1, notes, r.state⟩
      else
        match r.chain.zipIdx.map (fun q => (q.1, stamps q.2)) with
        | [] => .ok ⟨1, notes, r.state⟩
        | t :: ts => do
          let x ← frameXml junk0 junk t ts
          match x.text with
          | none => .ok ⟨1, notes ++ chainIf d r.chain, r.state⟩
          | some m => do
            let txt ← cstr m
            .ok ⟨0, notes ++ chainIf d r.chain ++ [.xml txt], r.state⟩

/-- mbus-serial-set-address.c:66-228 -/
def setAddressToolD {σ : Type} (d : Bool) (junk : Frame) (o : Ops σ) (s : σ) (old new : List Byte) : C (Exit σ) :=
  let newAddr := atoi new
  if isPrimaryAddress newAddr = false then .ok ⟨-1, [], s⟩
  else if newAddr = 0xFD ∨ newAddr = 0xFE ∨ newAddr = 0xFF then .ok ⟨-1, [], s⟩
  else do
    let (notes, ok, s) ← initSlavesD d o s 0xFD
    if ok = false then .ok ⟨1, notes, s⟩
    else do
      let (r, s) ← sendPing o s newAddr false
      if r = -1 then .ok ⟨1, notes, s⟩
      else do
        let (rc, _, s) ← o.recv s junk
        if rc ≠ RECV_TIMEOUT then .ok ⟨1, notes, s⟩
        else do
          let (a, s) ← reach o s old
          match a with
          | none => .ok ⟨1, notes, s⟩
          | some a => do
            let (r, s) ← setPrimaryAddress o s a newAddr
            if r = -1 then .ok ⟨1, notes, s⟩
            else do
              let (rc, reply, s) ← o.recv s Frame.zero
              if rc = RECV_TIMEOUT then .ok ⟨1, notes, s⟩
              else if reply.type ≠ TYPE_ACK then do
                let t ← printReply false reply
                .ok ⟨0, notes ++ t, s⟩
              else .ok ⟨0, notes ++ [.addressSet newAddr], s⟩

/-- mbus-serial-scan-secondary.c:113-183 (mbus-tcp-scan-secondary has no option -d) -/
def scanSecondaryToolD {σ : Type} (d : Bool) (o : Ops σ) (st : Settings) (s : σ) (mask : List Byte) : C (Exit σ) :=
  if isSecondaryAddress mask = false then .ok ⟨1, [], s⟩
  else do
    let (notes, ok, s) ← initSlavesD d o s 0xFF
    if ok = false then .ok ⟨1, notes, s⟩
    else do
      let (_, s, _, ls) ← scanRange o.printing st (s, [], []) 0 mask
      .ok ⟨0, notes ++ ls, s⟩

end Mbus
