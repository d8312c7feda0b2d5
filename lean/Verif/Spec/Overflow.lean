import Verif.Spec.Verdict
/-!
# Specification: which contents make the arithmetic overflow

Three readers compute with sizes and offsets that they take from the content as they are. The same walks as in
`Spec/Walk.lean`, up to a place where a result does not fit into 64 bits. Builds with overflow checks panic there.
-/

namespace FF.Spec
open FileFormat

/-- The size, as a signed number of 64 bits, minus `k` is below the least such number. -/
def Underflows (size k : Nat) : Prop := 2 ^ 63 ≤ size ∧ size < 2 ^ 63 + k

/-- MP4: from `p`, within `n` more boxes, there is one whose size minus the length of what was read of it does not fit. -/
inductive Mp4Overflow (b : Bytes) (top : Nat) : (n p : Nat) → Prop where
  | handler {n p size q} (hb : BoxAt b p b!"hdlr" size q) (hl : q + 12 ≤ b.length) (ho : Underflows size 20) :
    Mp4Overflow b top (n + 1) p
  | other {n p type size q} (hb : BoxAt b p type size q) (ht : type ∉ [b!"moov", b!"trak", b!"mdia", b!"hdlr"])
      (ho : Underflows size 8) : Mp4Overflow b top (n + 1) p
  | enter {n p type size q} (hb : BoxAt b p type size q) (ht : type ∈ [b!"moov", b!"trak", b!"mdia"])
      (hw : Mp4Overflow b top n q) : Mp4Overflow b top (n + 1) p
  | pastHandler {n p size q r} (hb : BoxAt b p b!"hdlr" size q) (hl : q + 12 ≤ b.length)
      (hg : Goes top (q + 12) (wrapped (size - 20)) r) (hw : Mp4Overflow b top n r) : Mp4Overflow b top (n + 1) p
  | past {n p type size q r} (hb : BoxAt b p type size q) (ht : type ∉ [b!"moov", b!"trak", b!"mdia", b!"hdlr"])
      (hg : Goes top q (wrapped (size - 8)) r) (hw : Mp4Overflow b top n r) : Mp4Overflow b top (n + 1) p

/-- ASF: from `p`, within `n` more objects, there is one whose size minus the length of what was read of it does not fit, or
whose end does not. -/
inductive AsfOverflow (b : Bytes) (top : Nat) : (n p : Nat) → Prop where
  | stream {n p} (hm : MagicAt p asfStreamProperties.bytes b) (hl : p + 40 ≤ b.length)
      (ho : Underflows (leAt b (p + 16) 8) 40) : AsfOverflow b top (n + 1) p
  | content {n p} (hm : MagicAt p asfExtendedContent.bytes b) (hl : p + 26 ≤ b.length)
      (hd : DescriptorsAt b top (min 32 (leAt b (p + 24) 2)) (p + 26) false)
      (ho : 2 ^ 64 ≤ p + 26 + leAt b (p + 16) 8) : AsfOverflow b top (n + 1) p
  | other {n p} (hl : p + 24 ≤ b.length) (hs : ¬ MagicAt p asfStreamProperties.bytes b)
      (he : ¬ MagicAt p asfExtendedContent.bytes b) (ho : Underflows (leAt b (p + 16) 8) 24) : AsfOverflow b top (n + 1) p
  | pastStream {n p r} (hm : MagicAt p asfStreamProperties.bytes b) (hl : p + 40 ≤ b.length)
      (hg : Goes top (p + 40) (wrapped (leAt b (p + 16) 8 - 40)) r) (hw : AsfOverflow b top n r) : AsfOverflow b top (n + 1) p
  | pastContent {n p r} (hm : MagicAt p asfExtendedContent.bytes b) (hl : p + 26 ≤ b.length)
      (hd : DescriptorsAt b top (min 32 (leAt b (p + 24) 2)) (p + 26) false)
      (hr : r = p + leAt b (p + 16) 8) (ht : r ≤ top) (hw : AsfOverflow b top n r) : AsfOverflow b top (n + 1) p
  | past {n p r} (hl : p + 24 ≤ b.length) (hs : ¬ MagicAt p asfStreamProperties.bytes b)
      (he : ¬ MagicAt p asfExtendedContent.bytes b) (hg : Goes top (p + 24) (wrapped (leAt b (p + 16) 8 - 24)) r)
      (hw : AsfOverflow b top n r) : AsfOverflow b top (n + 1) p

/-- ZIP: the locator in front of the end record gives an offset that is too large to add 32. -/
def ZipOverflow (b : Bytes) : Prop :=
  ∃ e, EndAt b e ∧ 20 ≤ e ∧ MagicAt (e - 20) b!"PK\x06\x07" b ∧ 2 ^ 64 ≤ leAt b (e - 12) 8 + 32

/-- The reader of the feature comes to a result that does not fit into 64 bits. -/
def ReaderOverflows (b : Bytes) (top : Nat) : Feature → Prop
  | .asf => 28 ≤ b.length ∧ 30 ≤ top ∧ AsfOverflow b top (min 256 (leAt b 24 4)) 30
  | .mp4 => Mp4Overflow b top 256 0
  | .zip => ZipOverflow b
  | _ => False

/-- The reader of an enabled feature does that on the content `b`, if the magic numbers are looked for in `w`. -/
def OverflowOn (ft : Features) (w b : Bytes) (top : Nat) : Prop :=
  ∃ g : Feature, g.enabled ft = true ∧ SignatureSays w g.base ∧ ReaderOverflows b top g

end FF.Spec
