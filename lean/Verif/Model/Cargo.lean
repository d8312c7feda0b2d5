import Verif.Model.Detect
/-!
# The features of the package (`Cargo.toml` 17-45)

Which readers a build has is decided by Cargo: every crate of the dependency graph names features of `file-format`; Cargo
builds the crate once, with all the features named and all those that they imply, and refuses names that it does not know.
-/

namespace FF
open FileFormat

/-- The table `[features]` (`Cargo.toml` 17-45). -/
def cargoTable : List (String × List String) := [
  ("reader", ["reader-asf", "reader-cfb", "reader-ebml", "reader-exe", "reader-id3v2", "reader-mp4", "reader-pdf", "reader-rm",
    "reader-sqlite3", "reader-txt", "reader-xml", "reader-zip"]),
  ("reader-asf", []),
  ("reader-cfb", []),
  ("reader-ebml", []),
  ("reader-exe", []),
  ("reader-id3v2", []),
  ("reader-mp4", []),
  ("reader-pdf", []),
  ("reader-rm", []),
  ("reader-sqlite3", []),
  ("reader-txt", []),
  ("reader-xml", []),
  ("reader-zip", [])]

/-- Cargo accepts the names of the table, and `default` (which every dependent asks for unless it opts out, and which
stands for nothing if the table does not have it) (`Cargo.toml` 17-45). -/
def cargoKnown (name : String) : Bool := name == "default" || cargoTable.any fun e => e.1 == name

/-- What a feature implies directly (`Cargo.toml` 17-45). -/
def cargoImplied (name : String) : List String :=
  match cargoTable.find? fun e => e.1 == name with
  | some e => e.2
  | none => []

/-- The closure of a list of names under implication; a chain of implications is no longer than the table
(`Cargo.toml` 17-45). -/
def cargoClosure : Nat → List String → List String
  | 0, names => names
  | n + 1, names => cargoClosure n (names ++ names.flatMap cargoImplied)

/-- The conditions `cfg(feature = "...")` (`src/readers.rs` 13-33, 44-48). -/
def cfgFeatures (names : List String) : Features where
  asf := names.contains "reader-asf"
  cfb := names.contains "reader-cfb"
  ebml := names.contains "reader-ebml"
  exe := names.contains "reader-exe"
  id3v2 := names.contains "reader-id3v2"
  mp4 := names.contains "reader-mp4"
  pdf := names.contains "reader-pdf"
  rm := names.contains "reader-rm"
  sqlite3 := names.contains "reader-sqlite3"
  txt := names.contains "reader-txt"
  xml := names.contains "reader-xml"
  zip := names.contains "reader-zip"

/-- The build that Cargo makes for the dependents, given what each of them asks for; `none` if it refuses
(`Cargo.toml` 17-45, `src/readers.rs` 13-48). -/
def cargoBuild (dependents : List (List String)) : Option Features :=
  let names := dependents.flatten
  if names.all cargoKnown then some (cfgFeatures (cargoClosure cargoTable.length names)) else none

end FF
