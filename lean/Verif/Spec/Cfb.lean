import Verif.Spec.Guid
import Verif.Spec.Offsets
/-!
# Specification: the directory of a compound file
-/

namespace FF.Spec

/-- Sector size: 512 bytes in version 3, 4096 bytes otherwise. -/
def cfbSectorSize (b : Bytes) : Nat := if u16At b 26 = 3 then 512 else 4096

/-- Offset of the directory: byte 48 holds its first sector; the header takes up the sector before
sector 0. Its entries have 128 bytes: a name of 64 bytes in UTF-16LE, and the CLSID at offset 80. -/
def cfbDirectory (b : Bytes) : Nat := cfbSectorSize b * (1 + u32At b 48)

/-- ASCII text in UTF-16LE. -/
def utf16 (s : Bytes) : Bytes := s.flatMap fun c => [c, 0]

end FF.Spec
