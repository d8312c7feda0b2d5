import Verif.Spec.Magic
/-!
# Specification: the longest magic value

`src/signatures.rs` 1: "Definition of known file formats signatures, listed in descending order of size."
-/

namespace FF.Spec

/-- Number of bytes of a magic value, all its parts taken together. -/
def magicSize (parts : List Part) : Nat := (parts.map fun p => p.value.length).sum

/-- `f` has a magic value with these parts. -/
def IsMagicOf (f : FileFormat) (parts : List Part) : Prop :=
  ∃ e ∈ signatureTable, e.format = f ∧ parts ∈ e.alts

/-- All magic values of `f` have the same number of bytes. -/
def OneSize (f : FileFormat) : Prop :=
  ∀ alt alt', IsMagicOf f alt → IsMagicOf f alt' → magicSize alt = magicSize alt'

/-- Among the magic values that `b` holds, one of `f` is at least as long as each of the others. -/
def HasLongestMagic (f : FileFormat) (b : Bytes) : Prop :=
  ∃ alt, IsMagicOf f alt ∧ Carries b alt ∧
    ∀ g alt', IsMagicOf g alt' → Carries b alt' → magicSize alt' ≤ magicSize alt

/-- Formats with a short magic value next to a long one: listed early for the long one, they hide longer magic values of
others with the short one. -/
def shortMagicFirst : List FileFormat := [
  .ClojureScript, .MathematicalMarkupLanguage, .Extensible3d, .ToolCommandLanguageScript, .ShellScript,
  .LuaScript, .EncapsulatedPostscript, .HypertextMarkupLanguage, .Stuffit, .UniversalSubtitleFormat,
  .Fictionbook, .MegaDriveRom, .JpegXl, .XmlShareablePlaylistFormat, .CollaborativeDesignActivity,
  .TiledTilesetXml, .Drawio, .InitialGraphicsExchangeSpecification, .SubripText, .WebVideoTextTracks,
  .XmlLocalizationInterchangeFileFormat, .Atom, .ExtensibleMarkupLanguage, .RoshalArchive,
  .SimpleObjectAccessProtocol, .AdditiveManufacturingFormat, .AdvancedStreamRedirector,
  .ExtensibleStylesheetLanguageTransformations, .GeographyMarkupLanguage, .GpsExchangeFormat,
  .KeyholeMarkupLanguage, .MpegDashMpd, .ReallySimpleSyndication, .ScalableVectorGraphics, .TiledMapXml,
  .AppleQuicktime, .MachO, .Cpio, .Musepack]

end FF.Spec
