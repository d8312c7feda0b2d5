import Verif.Model.Detect
/-! Reads inputs (little-endian u32 length, then the bytes) from the file given and prints the model's verdict on each, in the release and the debug
profile. -/
open FF

def main (args : List String) : IO Unit := do
  let d ← IO.FS.readBinFile args[0]!
  let mut p := 0
  while p + 4 ≤ d.size do
    let n := (d.get! p).toNat + 256 * (d.get! (p + 1)).toNat + 65536 * (d.get! (p + 2)).toNat + 16777216 * (d.get! (p + 3)).toNat
    let x := (d.extract (p + 4) (p + 4 + n)).toList
    p := p + 4 + n
    let show' := fun (r : Except Fail FileFormat) => match r with
      | .ok f => f.name
      | .error .panic => "PANIC"
      | .error _ => "ERROR"
    let r := show' (fromBytes Cfg.release Features.all x)
    IO.println (r ++ "\t" ++ show' (fromBytes Cfg.debug Features.all x))
