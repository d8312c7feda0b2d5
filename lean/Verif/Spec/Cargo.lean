import Verif.Spec.Families
/-!
# What a dependent asks for when it names features
-/

namespace FF.Spec
open FF

/-- The name of the feature in `Cargo.toml` and in the documentation (`src/lib.rs` 40-210). -/
def Feature.cargoName : Feature → String
  | .asf => "reader-asf"
  | .cfb => "reader-cfb"
  | .ebml => "reader-ebml"
  | .exe => "reader-exe"
  | .id3v2 => "reader-id3v2"
  | .mp4 => "reader-mp4"
  | .pdf => "reader-pdf"
  | .rm => "reader-rm"
  | .sqlite3 => "reader-sqlite3"
  | .txt => "reader-txt"
  | .xml => "reader-xml"
  | .zip => "reader-zip"

/-- The dependent asks for the reader: by its name, or for all of them ("`reader` - Enables all reader features"). -/
def AsksFor (dependent : List String) (g : Feature) : Prop := g.cargoName ∈ dependent ∨ "reader" ∈ dependent

/-- The name is the one of a feature of the package, or `default`. -/
def KnownName (name : String) : Prop := name = "default" ∨ name = "reader" ∨ ∃ g : Feature, name = g.cargoName

end FF.Spec
