import Verif.Model.Session
import Verif.Model.Termios
/-
The numbers behind the names: statements of properties use names of constants of the public headers (and of the host's `termios.h`), and a
program compiled against these headers sees their values.  `header_values` pins them down, so that no statement is true for other numbers than
those of the headers.  mbus-protocol.h:118-122, 257-259, 300-304, 324-328, 348-362; mbus-protocol-aux.h:74-81.
-/
namespace Mbus

/-- The values of the constants of the headers. -/
theorem header_values :
    (TYPE_ANY = 0 ∧ TYPE_ACK = 1 ∧ TYPE_SHORT = 2 ∧ TYPE_CONTROL = 3 ∧ TYPE_LONG = 4) ∧
    (RECV_OK = 0 ∧ RECV_ERROR = -1 ∧ RECV_INVALID = -2 ∧ RECV_TIMEOUT = -3 ∧ RECV_RESET = -4) ∧
    (DATA_FIXED = 1 ∧ DATA_VARIABLE = 2 ∧ DATA_ERROR = 3) ∧
    (PROBE_NOTHING = 0 ∧ PROBE_SINGLE = 1 ∧ PROBE_COLLISION = 2 ∧ PROBE_ERROR = -1) ∧
    (PURGE_NONE = 0 ∧ PURGE_M2S = 1 ∧ PURGE_S2M = 2) ∧
    (ACK_START = 0xE5 ∧ SHORT_START = 0x10 ∧ CONTROL_START = 0x68 ∧ LONG_START = 0x68 ∧ FRAME_STOP = 0x16) ∧
    (MASK_SND_NKE = 0x40 ∧ MASK_SND_UD = 0x53 ∧ MASK_REQ_UD2 = 0x5B ∧ MASK_REQ_UD1 = 0x5A ∧ MASK_RSP_UD = 0x08 ∧ MASK_FCB = 0x20 ∧
      MASK_FCV = 0x10 ∧ MASK_ACD = 0x20 ∧ MASK_DFC = 0x10 ∧ MASK_DIR = 0x40 ∧ MASK_DIR_M2S = 0x40 ∧ MASK_DIR_S2M = 0) := by
  decide +kernel

/-- Those of `termios.h` on Linux that the serial part is about (asm-generic/termbits.h, bits/termios-*.h). -/
theorem termios_values :
    (CS8 = 0x30 ∧ CREAD = 0x80 ∧ PARENB = 0x100 ∧ CLOCAL = 0x800 ∧ CBAUD = 0x100F ∧ VTIME = 5 ∧ VMIN = 6) ∧
    (B300 = 7 ∧ B600 = 8 ∧ B1200 = 9 ∧ B2400 = 11 ∧ B4800 = 12 ∧ B9600 = 13 ∧ B19200 = 14 ∧ B38400 = 15) := by
  decide +kernel

end Mbus
