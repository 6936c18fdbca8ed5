import Verif.Model.ParseTools
import Verif.Model.Messages
/-
The programs test/mbus_parse.c and test/mbus_parse_hex.c from the command line to the exit status, with what they write on standard error.
Simplified: the diagnostics that the library itself writes on standard error while it normalises values (`MBUS_ERROR`) are not included, and
what the program has not freed when it ends.
-/
namespace Mbus

/-- what `fopen` and `fread` find under a name -/
inductive Disk where
  | unopenable
  | unreadable
  | content (bs : List Byte)

/-- exit status, standard output, standard error -/
structure Printed where
  code : Int
  out : List Byte
  err : List Byte
deriving DecidableEq

/-- test/mbus_parse.c:28-42, test/mbus_parse_hex.c:28-42: the arguments behind the program name; normalised?, file -/
def parseArgs : List (List Byte) → Option (Bool × List Byte)
  | [n, file] => if n = cs! "-n" then some (true, file) else none
  | [file] => some (false, file)
  | _ => none

/-- test/mbus_parse.c:39-40, test/mbus_parse_hex.c:39-40 -/
def parseUsage (self kind : List Byte) : List Byte :=
  cs! "usage: " ++ self ++ cs! " [-n] " ++ kind ++ cs! "\n    optional flag -n for normalized values\n"

/-- test/mbus_parse.c:44-60, test/mbus_parse_hex.c:44-60: the file, or the failure -/
def parseOpen (self file : List Byte) (disk : List Byte → Disk) : Printed ⊕ List Byte :=
  match disk file with
  | .unopenable => .inl ⟨1, [], self ++ cs! ": failed to open '" ++ file ++ cs! "'\n"⟩
  | .unreadable => .inl ⟨1, [], self ++ cs! ": failed to read '" ++ file ++ cs! "'\n"⟩
  | .content bs => .inr bs

/-- test/mbus_parse.c:70-78, test/mbus_parse_hex.c:96-105; `e` is `error_str` -/
def parseShow (before e : List Byte) : Option (List Byte) → C Printed
  | none => do
    let t ← errorStr e
    .ok ⟨1, before, cs! "Failed to generate XML representation of MBUS frame: " ++ t ++ [10]⟩
  | some m => do
    let t ← cstr m
    .ok ⟨0, before ++ t, []⟩

/-- test/mbus_parse_hex.c:62-105, on a file with content `file` -/
def parseHexBody (uninit : Buf 4096) (dump : Buf 256) (junk0 : Nat → Byte) (junk : Nat → Nat → Byte) (normalized : Bool) (file : List Byte) :
    C Printed := do
  let (buff, n) ← rawRead uninit file
  let (r, reply, m) ← mbusParseE Frame.zero buff n
  let e ← say errorStrInit m
  if r < 0 then do
    let t ← errorStr e
    .ok ⟨1, [], cs! "mbus_parse: " ++ t ++ [10]⟩
  else if r > 0 then .ok ⟨1, [], cs! "mbus_parse: need " ++ fmtInt r ++ cs! " more bytes\n"⟩
  else do
    let (rc, x, m) ← frameDataParseE reply FrameData.new
    let e ← say e m
    if rc ≠ 0 then do
      let (_, out, _) ← framePrint dump [reply]
      let t ← errorStr e
      .ok ⟨1, out, cs! "mbus_frame_data_parse: " ++ t ++ [10]⟩
    else do
      let m ← toolXml junk0 junk normalized x
      parseShow [] e m

/-- test/mbus_parse_hex.c:17-106, the program; `self` is `argv[0]` -/
def parseHexMain (uninit : Buf 4096) (dump : Buf 256) (junk0 : Nat → Byte) (junk : Nat → Nat → Byte) (disk : List Byte → Disk)
    (self : List Byte) (args : List (List Byte)) : C Printed :=
  match parseArgs args with
  | none => .ok ⟨1, [], parseUsage self (cs! "hex-file")⟩
  | some (normalized, file) =>
    match parseOpen self file disk with
    | .inl p => .ok p
    | .inr bs => parseHexBody uninit dump junk0 junk normalized bs

/-- test/mbus_parse.c:62-78, on a file with content `file` -/
def parseBody (dump : Buf 256) (junk0 : Nat → Byte) (junk : Nat → Nat → Byte) (normalized : Bool) (file : List Byte) : C Printed := do
  let (_, reply, m) ← mbusParseE Frame.zero (file.take 1024 ++ List.replicate (1024 - file.length) 0) (min file.length 1024)
  let e ← say errorStrInit m
  let (_, x, m) ← frameDataParseE reply FrameData.new
  let e ← say e m
  let (_, out, _) ← framePrint dump [reply]
  let m ← toolXml junk0 junk normalized x
  parseShow out e m

/-- test/mbus_parse.c:17-79, the program -/
def parseMain (dump : Buf 256) (junk0 : Nat → Byte) (junk : Nat → Nat → Byte) (disk : List Byte → Disk)
    (self : List Byte) (args : List (List Byte)) : C Printed :=
  match parseArgs args with
  | none => .ok ⟨1, [], parseUsage self (cs! "binary-file")⟩
  | some (normalized, file) =>
    match parseOpen self file disk with
    | .inl p => .ok p
    | .inr bs => parseBody dump junk0 junk normalized bs

end Mbus
