import Verif.Model.Tools
import Verif.Model.Print
/-
The tools test/mbus_parse.c and test/mbus_parse_hex.c, which show what is in a recorded telegram.  The file exists and can be read; the result
is the exit status and the text on standard output.  Frames built by these tools have no time stamp (it stays 0).
-/
namespace Mbus

/-- test/mbus_parse.c:68, test/mbus_parse_hex.c:94: the XML text, normalised or not (`none`: NULL) -/
def toolXml (junk0 : Nat → Byte) (junk : Nat → Nat → Byte) (normalized : Bool) (x : FrameData) : C (Option (List Byte)) :=
  if normalized then frameDataXmlNormalized junk0 junk x
  else frameDataXml junk0 junk x (x.var.records.map fun _ => none)

/-- test/mbus_parse.c:70-78, test/mbus_parse_hex.c:96-105: `printf("%s", xml_result)`, or exit status 1 -/
def toolShow (before : List Byte) : Option (List Byte) → C (Int × List Byte)
  | none => .ok (1, before)
  | some m => do
    let t ← cstr m
    .ok (0, before ++ t)

/-- test/mbus_parse_hex.c:62-105 on a file with content `file`; `uninit` is the array for the bytes, `dump` the array in `mbus_frame_print` -/
def parseHexTool (uninit : Buf 4096) (dump : Buf 256) (junk0 : Nat → Byte) (junk : Nat → Nat → Byte) (normalized : Bool) (file : List Byte) :
    C (Int × List Byte) := do
  let (buff, n) ← rawRead uninit file
  let (r, reply) ← mbusParse Frame.zero buff n
  if r < 0 then .ok (1, [])
  else if r > 0 then .ok (1, [])
  else do
    let (rc, x) ← frameDataParse reply FrameData.new
    if rc ≠ 0 then do
      let (_, t, _) ← framePrint dump [reply]
      .ok (1, t)
    else do
      let m ← toolXml junk0 junk normalized x
      toolShow [] m

/-- test/mbus_parse.c:62-78 on a file with content `file`.  The results of `mbus_parse` and `mbus_frame_data_parse` are not looked at. -/
def parseTool (dump : Buf 256) (junk0 : Nat → Byte) (junk : Nat → Nat → Byte) (normalized : Bool) (file : List Byte) : C (Int × List Byte) := do
  let (_, reply) ← mbusParse Frame.zero (file.take 1024 ++ List.replicate (1024 - file.length) 0) (min file.length 1024)
  let (_, x) ← frameDataParse reply FrameData.new
  let (_, t, _) ← framePrint dump [reply]
  let m ← toolXml junk0 junk normalized x
  toolShow t m

end Mbus
