import Verif.Spec.Serve
import Verif.Spec.Device
/-!
# Specification: files that notice when their end is touched
-/

namespace FF

/-- The seek goes by the end of the file. -/
def SeekFrom.byEnd : SeekFrom → Bool
  | .fromEnd _ => true
  | _ => false

/-- A file with the content `data`, positions in which go up to `top`. It notices when its end is touched: when a read asks for
more bytes than are left, or a seek goes by the end. The state is how many calls were made, the position, and whether the end
was touched. -/
def endWatched (data : Bytes) (top : Nat) : Device (Nat × Nat × Bool) where
  read := fun (t, p, touched) n =>
    (.ok (slice data p n), (t + 1, p + (slice data p n).length, touched || decide ((slice data p n).length < n)))
  seek := fun (t, p, touched) s =>
    match seekTarget data.length top p s with
    | some q => (.ok q, (t + 1, q, touched || s.byEnd))
    | none => (.error .invalidInput, (t + 1, p, touched || s.byEnd))
  tell := fun (t, p, touched) => (.ok p, (t + 1, p, touched))
  patience := fun _ => 0

namespace Spec

/-- A detection on the content, from the position `p` on, touches the end of the content. -/
def touchesEnd (cfg : Cfg) (ft : Features) (data : Bytes) (top p : Nat) : Bool :=
  (fromDevice (endWatched data top) cfg ft (0, p, false)).2.2.2

end Spec
end FF
