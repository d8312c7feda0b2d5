import Verif.Model.Format
import Verif.Spec.Readme
/-!
# Specification: metadata

How an entry of the README list is written, and what a media type looks like.
-/

namespace FF.Spec

/-- The README entry for a format with this name and short name: `Name (SHORT)` or `Name`. -/
def readmeEntry (name : String) : Option String → String
  | some short => name ++ " (" ++ short ++ ")"
  | none => name

/-- The README heading of a kind. -/
def readmeHeading : Kind → String
  | .Archive => "Archive"
  | .Audio => "Audio"
  | .Compressed => "Compressed"
  | .Database => "Database"
  | .Diagram => "Diagram"
  | .Disk => "Disk"
  | .Document => "Document"
  | .Ebook => "Ebook"
  | .Executable => "Executable"
  | .Font => "Font"
  | .Formula => "Formula"
  | .Geospatial => "Geospatial"
  | .Image => "Image"
  | .Metadata => "Metadata"
  | .Model => "Model"
  | .Other => "Other"
  | .Package => "Package"
  | .Playlist => "Playlist"
  | .Presentation => "Presentation"
  | .Rom => "ROM"
  | .Spreadsheet => "Spreadsheet"
  | .Subtitle => "Subtitle"
  | .Video => "Video"

/-- Lower-case letters and digits. -/
def isLowerAlnum (c : Char) : Bool := ('a' ≤ c && c ≤ 'z') || ('0' ≤ c && c ≤ '9')

/-- RFC 6838, section 4.2, `restricted-name`, in lower case: 1 to 127 characters, a letter or digit
followed by letters, digits and `!#$&-^_.+`. -/
def RestrictedName (n : List Char) : Prop :=
  (∃ c t, n = c :: t ∧ isLowerAlnum c = true) ∧ n.length ≤ 127 ∧
    ∀ c ∈ n, isLowerAlnum c = true ∨ c ∈ ['!', '#', '$', '&', '-', '^', '_', '.', '+']

/-- The top-level media types in use (RFC 6838, section 4.2 and RFC 8081). -/
def topLevelTypes : List (List Char) :=
  ["application".toList, "audio".toList, "font".toList, "image".toList, "model".toList,
    "text".toList, "video".toList]

/-- A media type: `type/subtype`. -/
def WellFormedMediaType (m : String) : Prop :=
  ∃ t s, m.toList = t ++ '/' :: s ∧ t ∈ topLevelTypes ∧ RestrictedName s

/-- A file extension: one or more letters, digits or hyphens (so no dot and no path separator). -/
def WellFormedExtension (e : String) : Prop :=
  e.toList ≠ [] ∧ ∀ c ∈ e.toList, isLowerAlnum c = true ∨ ('A' ≤ c ∧ c ≤ 'Z') ∨ c = '-'

end FF.Spec
