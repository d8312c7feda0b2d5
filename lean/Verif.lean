import Verif.Model.Detect
import Verif.Spec.Readme
import Verif.Spec.Families
import Verif.Props.Total
import Verif.Props.Signature
import Verif.Props.Stream
import Verif.Props.Text
import Verif.Props.Family
import Verif.Props.Window
import Verif.Props.Realmedia
import Verif.Props.Exe
import Verif.Props.Cfb
import Verif.Props.Id3
import Verif.Props.Mp4
import Verif.Props.Ebml
import Verif.Props.Asf
import Verif.Props.Zip
import Verif.Props.Calls
import Verif.Spec.Mimetype
import Verif.Proofs.Agree
import Verif.Proofs.Asks
import Verif.Props.Requests
import Verif.Props.Meta
import Verif.Props.Detectable
import Verif.Props.Lefi
import Verif.Props.Payload
import Verif.Props.Profile
import Verif.Props.Modest
import Verif.Props.ModestStream
import Verif.Props.Published
import Verif.Props.Registered
import Verif.Props.FirstRead
import Verif.Props.Trailing
import Verif.Props.Truncated
import Verif.Props.After
import Verif.Model.Target32
import Verif.Spec.Fields32
import Verif.Proofs.Target32
import Verif.Props.Target32
import Verif.Proofs.Mp4Stray
import Verif.Spec.Rearrange
import Verif.Spec.TextForm
import Verif.Props.Rearrange
import Verif.Props.TextForm
import Verif.Props.Blank
import Verif.Spec.XmlRoot
import Verif.Props.XmlRoot
import Verif.Spec.Comment
import Verif.Spec.Evidence
import Verif.Props.Comment
import Verif.Props.Truncated2
import Verif.Props.Volume
import Verif.Proofs.Invert
import Verif.Proofs.Evidence
import Verif.Props.Evidence
import Verif.Spec.Walk
import Verif.Proofs.Ends
import Verif.Proofs.Walk
import Verif.Proofs.Walk2
import Verif.Proofs.Walk3
import Verif.Proofs.Walk4
import Verif.Props.Walk
import Verif.Model.Device
import Verif.Spec.Device
import Verif.Proofs.Device
import Verif.Proofs.Device2
import Verif.Proofs.Device3
import Verif.Props.Device
import Verif.Spec.Retry
import Verif.Proofs.Retry
import Verif.Props.Retry
import Verif.Spec.Longest
import Verif.Props.Longest
import Verif.Props.Longest2
import Verif.Spec.Needed
import Verif.Props.Needed
import Verif.Spec.Published2
import Verif.Spec.Registered2
import Verif.Spec.Registered3
import Verif.Spec.Second
import Verif.Props.Second
import Verif.Spec.Positions
import Verif.Proofs.MattersTable
import Verif.Props.Positions
import Verif.Model.Display
import Verif.Spec.Display
import Verif.Props.Display
import Verif.Spec.Verdict
import Verif.Props.Verdict
import Verif.Spec.Overflow
import Verif.Proofs.Panics
import Verif.Props.Overflow
import Verif.Spec.Mend
import Verif.Proofs.Mend
import Verif.Props.Mend
import Verif.Spec.Walk32
import Verif.Proofs.Walk32
import Verif.Props.Verdict32
import Verif.Spec.Overflow32
import Verif.Proofs.Panics32
import Verif.Props.Overflow32
import Verif.Model.Claim
import Verif.Spec.Claim
import Verif.Proofs.Claim
import Verif.Proofs.Claim2
import Verif.Props.Claim
import Verif.Model.Cargo
import Verif.Spec.Cargo
import Verif.Props.Fallback
import Verif.Props.Cargo
import Verif.Spec.Pipe
import Verif.Props.Pipe
import Verif.Model.Debug
import Verif.Proofs.DebugTable
import Verif.Spec.Debug
import Verif.Props.Debug
import Verif.Spec.Serve
import Verif.Proofs.Serve
import Verif.Props.Serve
import Verif.Spec.Buffered
import Verif.Proofs.Buffered
import Verif.Proofs.Buffered2
import Verif.Props.Buffered
import Verif.Spec.Damaged
import Verif.Proofs.Damaged
import Verif.Props.Damaged
import Verif.Spec.Metered
import Verif.Proofs.Metered
import Verif.Props.Metered
import Verif.Spec.Handles
import Verif.Props.Handles
import Verif.Spec.Traced
import Verif.Props.Traced
import Verif.Spec.Watched
import Verif.Props.Watched
import Verif.Props.Profile2
import Verif.Props.Family2
import Verif.Spec.Rare
import Verif.Proofs.Rare
import Verif.Props.Rare
import Verif.Spec.Override
import Verif.Proofs.Override
import Verif.Props.Override
