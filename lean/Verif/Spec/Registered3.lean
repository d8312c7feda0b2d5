import Verif.Spec.Registered2
/-!
# Media types and extensions that the crate does not use

Registrations with IANA, or the extension the owner of the format has given it, for formats that are not in the other two lists.
-/

namespace FF.Spec
open FileFormat

/-- Format, media type, extension. -/
def registered3 : List (FileFormat × String × String) := [
  -- IANA image/vnd.dwg and image/vnd.dxf
  (AutocadDrawing, "image/vnd.dwg", "dwg"),
  (DrawingExchangeFormatAscii, "image/vnd.dxf", "dxf"),
  (DrawingExchangeFormatBinary, "image/vnd.dxf", "dxf"),
  -- RFC 2045/2046: application/postscript
  (EncapsulatedPostscript, "application/postscript", "eps"),
  -- IANA application/oxps, ECMA-388: .oxps
  (Openxps, "application/oxps", "oxps"),
  -- IANA model/stl
  (StereolithographyAscii, "model/stl", "stl"),
  -- OpenOffice.org 1.x: .sxg
  (SunXmlWriterGlobal, "application/vnd.sun.xml.writer.global", "sxg"),
  -- IANA model/3mf
  (ThreeDimensionalManufacturingFormat, "model/3mf", "3mf")]

end FF.Spec
