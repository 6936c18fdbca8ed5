#!/bin/bash
# Fidelity check (a test, not a proof): runs the model on the telegrams of /repo/test, the way
# /repo/test/mbus_parse_hex.c and generate-xml.sh do, and compares with the recorded XML.
# usage: tools/fidelity.sh [repo]     (needs a built /verif/lean)
set -e
REPO=${1:-/repo}
LEAN=$(cd "$(dirname "$0")/../lean" && pwd)
T=$(mktemp -d)
cat > $T/Fid.lean <<'L'
import Verif.Model.Xml
open Mbus
def junk0 : Nat → Byte := fun i => if i % 7 = 3 then 0xAA else 0x55
def junk : Nat → Nat → Byte := fun k i => if (i + k) % 5 = 3 then 0xAB else 0x56
def go (raw : List Byte) (norm : Bool) : C (Except String (List Byte)) := do
  let (dst, n) ← hex2bin (List.replicate 4096 0) 4096 (raw ++ List.replicate (4096 - raw.length) 0)
  let (r, f) ← mbusParse Frame.zero dst n
  if r < 0 then .ok (.error "mbus_parse failed")
  else if r > 0 then .ok (.error s!"need {r} more bytes")
  else do
    let (r, x) ← frameDataParse f { FrameData.new with type := 0 }
    if r ≠ 0 then .ok (.error "mbus_frame_data_parse failed")
    else do
      let m ← if norm then frameDataXmlNormalized junk0 junk x
        else frameDataXml junk0 junk x (x.var.records.map fun _ => none)
      match m with
      | none => .ok (.error "xml NULL")
      | some m => .ok (.ok (m.takeWhile (· ≠ 0)))
def main (args : List String) : IO UInt32 := do
  let mut bad := 0
  for a in args do
    for norm in [false, true] do
      let raw ← IO.FS.readBinFile (a ++ ".hex")
      let exp := (a ++ (if norm then ".norm.xml" else ".xml") : String)
      let have? ← System.FilePath.pathExists exp
      let name := exp.splitOn "/" |>.getLast!
      match go raw.toList norm with
      | .error e => IO.println s!"FAULT {repr e} {name} recorded={have?}"
      | .ok (.error e) => IO.println s!"REFUSED {e} {name} recorded={have?}"
      | .ok (.ok out) =>
        if have? then
          let want ← IO.FS.readBinFile exp
          if want.toList = out then IO.println s!"SAME {name}"
          else
            bad := bad + 1
            IO.println s!"DIFFERENT {name}"
            IO.FS.writeBinFile ((← IO.getEnv "OUT").getD "/tmp" ++ "/" ++ name) ⟨out.toArray⟩
        else IO.println s!"NEW {name}"
  return (if bad = 0 then 0 else 1)
L
export OUT=$T
cd $LEAN
for d in test-frames error-frames unsupported-frames; do
  lake env lean --run $T/Fid.lean $(ls $REPO/test/$d/*.hex | sed 's/\.hex$//')
done | tee $T/out | grep -v ^SAME || true
echo "same: $(grep -c ^SAME $T/out)  different: $(grep -c ^DIFFERENT $T/out)  refused: $(grep -c ^REFUSED $T/out)  (outputs in $T)"
