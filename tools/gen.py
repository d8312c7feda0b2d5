#!/usr/bin/env python3
"""Generates Model/Format.lean and Model/Signatures.lean from /repo/src/{formats,signatures}.rs,
and Spec/Readme.lean / Spec/Families.lean from README.md and the documentation of src/lib.rs."""
import re, ast, os, sys
OUT = os.path.join(os.path.dirname(os.path.abspath(__file__)), "..", "lean", "Verif")

def parse_sigs():
    lines = open('/repo/src/signatures.rs').read().split('\n')
    ents = []; size = None
    for ln, l in enumerate(lines, 1):
        s = l.strip()
        m = re.match(r'// (\d+) bytes', s)
        if m: size = int(m[1])
        m = re.match(r'format = (\w+)', s)
        if m:
            ents.append(dict(fmt=m[1], line=ln, size=size, alts=[])); continue
        m = re.match(r'value\s*=\s*(.*)$', s)
        if m:
            rest = m[1]; parts = []; pos = 0
            while pos < len(rest):
                mm = re.match(r'\s*,?\s*b"((?:\\.|[^"\\])*)"(?:\s+offset = (\d+))?', rest[pos:])
                assert mm, (ln, rest[pos:])
                raw = mm[1]; b = bytearray(); i = 0
                while i < len(raw):
                    if raw[i] == '\\':
                        c = raw[i+1]
                        if c == 'x': b.append(int(raw[i+2:i+4], 16)); i += 4; continue
                        b.append({'n':10,'r':13,'t':9,'0':0,'\\':92,'"':34,"'":39}[c]); i += 2; continue
                    assert ord(raw[i]) < 128
                    b.append(ord(raw[i])); i += 1
                parts.append((int(mm[2] or 0), bytes(b))); pos += mm.end()
            ents[-1]['alts'].append((ln, parts))
    return ents

def parse_formats():
    lines = open('/repo/src/formats.rs').read().split('\n')
    fs = []
    for ln, l in enumerate(lines, 1):
        m = re.match(r'(format|name|short_name|media_type|extension|kind) = (.*)$', l.strip())
        if not m: continue
        k, v = m[1], m[2]
        if k == 'format': fs.append(dict(format=v, line=ln, short_name=None))
        else: fs[-1][k] = v if k == 'kind' else ast.literal_eval(v)
    return fs

def lstr(b):
    """Lean string literal with one character per byte"""
    o = []
    for x in (b if isinstance(b, bytes) else b.encode('ascii')):
        c = chr(x)
        if c == '"': o.append('\\"')
        elif c == '\\': o.append('\\\\')
        elif x == 10: o.append('\\n')
        elif x == 13: o.append('\\r')
        elif x == 9: o.append('\\t')
        elif 32 <= x < 127: o.append(c)
        else: o.append('\\x%02x' % x)
    return '"' + ''.join(o) + '"'

KINDS = "Archive Audio Compressed Database Diagram Disk Document Ebook Executable Font Formula Geospatial Image Metadata Model Other Package Playlist Presentation Rom Spreadsheet Subtitle Video".split()

def gen_format():
    F = parse_formats()
    o = []
    w = o.append
    w('''/-!
# `FileFormat`, `Kind` and their metadata

Generated by `tools/gen.py` from `src/formats.rs` (1-3094) and `src/lib.rs` (332-382), following
the macro `formats!` of `src/macros.rs` (13-149). Do not edit by hand.
-/

namespace FF

/-- `Kind` (`src/lib.rs` 332-382). -/
inductive Kind where''')
    for k in KINDS: w(f'  | {k}')
    w('  deriving DecidableEq, Repr\n')
    w('/-- `FileFormat` (`src/formats.rs`, enum generated by `src/macros.rs` 24-35). -/')
    w('inductive FileFormat where')
    for f in F: w(f"  | {f['format']}")
    w('  deriving DecidableEq, Repr\n')
    w('namespace FileFormat\n')
    def table(name, ty, key, doc, conv):
        w(f'/-- {doc} -/')
        w(f'def {name} : FileFormat → {ty}')
        for f in F:
            if key(f) is None: continue
            w(f"  | {f['format']} => {conv(key(f))}")
    table('name', 'String', lambda f: f['name'], '`FileFormat::name` (`src/macros.rs` 50-56, data from `src/formats.rs`).', lstr)
    w('')
    table('shortName', 'Option String', lambda f: f['short_name'], '`FileFormat::short_name` (`src/macros.rs` 73-80): formats without `short_name` fall to `_ => None`.', lambda s: 'some ' + lstr(s))
    w('  | _ => none\n')
    table('mediaType', 'String', lambda f: f['media_type'], '`FileFormat::media_type` (`src/macros.rs` 98-104).', lstr)
    w('')
    table('extension', 'String', lambda f: f['extension'], '`FileFormat::extension` (`src/macros.rs` 120-126).', lstr)
    w('')
    table('kind', 'Kind', lambda f: f['kind'], '`FileFormat::kind` (`src/macros.rs` 140-146).', lambda k: '.' + k)
    w('''
/-- `impl Default for FileFormat` (`src/lib.rs` 309-316). -/
def default : FileFormat := ArbitraryBinaryData

/-- `impl Display for FileFormat` (`src/lib.rs` 318-323). -/
def display (f : FileFormat) : String := f.name

/-- All variants in declaration order (not in the source, but the list of `src/formats.rs` 1-3094; used to state that a table covers the
whole enum, see `mem_all`). -/
def all : List FileFormat := [''' )
    names = [f['format'] for f in F]
    for i in range(0, len(names), 6):
        w('  ' + ', '.join(names[i:i+6]) + (',' if i + 6 < len(names) else ']'))
    w('\nend FileFormat\n\nend FF')
    open(f'{OUT}/Model/Format.lean', 'w').write('\n'.join(o) + '\n')

def gen_debug():
    """Model/Debug.lean: the derived `Debug` of the two enums; Proofs/DebugTable.lean: an ordering."""
    F = parse_formats()
    o = []; w = o.append
    w('''import Verif.Model.Display
/-!
# `Debug`

Generated by `tools/gen.py` from `src/formats.rs` (1-3094) and `src/lib.rs` (332-382). `Debug` is derived
(`src/macros.rs` 25, `src/lib.rs` 333): for an enum without fields that is `formatter.write_str` with the name of the
variant. Do not edit by hand.
-/

namespace FF

/-- The names of the variants of `Kind` (`src/lib.rs` 335-382). -/
def Kind.variantName : Kind → String''')
    for k in KINDS: w(f'  | {k} => "{k}"')
    w('')
    w('/-- The names of the variants of `FileFormat` (`format = ...` in `src/formats.rs`, `src/macros.rs` 33). -/')
    w('def FileFormat.variantName : FileFormat → String')
    for f in F: w(f"  | {f['format']} => {lstr(f['format'])}")
    w('''
/-- `Debug for Kind` (derived, `src/lib.rs` 333) for a formatter with these options. -/
def Kind.debug {σ : Type} (x : Kind) (k : Sink σ) (_o : FmtOptions) (s : σ) : Option σ :=
  k.write s x.variantName.toList

/-- `Debug for FileFormat` (derived, `src/macros.rs` 25) for a formatter with these options. -/
def FileFormat.debug {σ : Type} (f : FileFormat) (k : Sink σ) (_o : FmtOptions) (s : σ) : Option σ :=
  k.write s f.variantName.toList

end FF''')
    open(f'{OUT}/Model/Debug.lean', 'w').write('\n'.join(o) + '\n')
    key = lambda f: int.from_bytes(f['format'].lower().encode(), 'big')
    names = [('FileFormat.' if f['format'] == 'Empty' else '') + f['format'] for f in sorted(F, key=key)]
    o = []; w = o.append
    w('''import Verif.Model.Format
/-!
Generated by `tools/gen.py`: an ordering of the formats used as a certificate. Do not edit by hand.
-/

namespace FF.Meta
open FileFormat

/-- The formats by the name of the variant, in lower case, shorter ones first. -/
def variantOrder : List FileFormat := [''')
    for i in range(0, len(names), 4):
        w('  ' + ', '.join(names[i:i+4]) + (',' if i + 4 < len(names) else ']'))
    w('\nend FF.Meta')
    open(f'{OUT}/Proofs/DebugTable.lean', 'w').write('\n'.join(o) + '\n')

def gen_sigs():
    S = parse_sigs()
    o = []; w = o.append
    w('''import Verif.Model.Bytes
import Verif.Model.Format
/-!
# Signatures

Generated by `tools/gen.py` from `src/signatures.rs` (1-1454), following the macro `signatures!` of
`src/macros.rs` (158-179). Do not edit by hand.
-/

namespace FF
open FileFormat

/-- One part of a signature value: `b"..." offset = n` (offset 0 if absent; `src/macros.rs` 162). -/
structure Part where
  offset : Nat
  value : Bytes

/-- One `format = ...` item: the format and its `value = part, part, ...` alternatives (`src/macros.rs` 160-163). -/
structure SigEntry where
  format : FileFormat
  alts : List (List Part)
''')
    groups = []
    for e in S:
        if not groups or groups[-1][0] != e['size'] or len(groups[-1][1]) >= 40: groups.append((e['size'], []))
        groups[-1][1].append(e)
    names = []
    for gi, (size, es) in enumerate(groups):
        n = f'signatures{gi}'
        names.append(n)
        w(f'/-- `src/signatures.rs` {es[0]["line"]}-{es[-1]["alts"][-1][0]} (section "{size} bytes"). -/')
        w(f'def {n} : List SigEntry := [')
        for k, e in enumerate(es):
            w(f'  ⟨{e["fmt"]}, [')
            al = []
            for ln, parts in e['alts']:
                al.append('    [' + ', '.join(f'⟨{off}, b!{lstr(v)}⟩' for off, v in parts) + ']')
            w(',\n'.join(al) + ']⟩' + (',' if k + 1 < len(es) else ']'))
        w('')
    w('/-- The whole table in source order (`src/signatures.rs` 3-1454). -/')
    w('def signatureTable : List SigEntry :=\n  ' + ' ++\n  '.join(names))
    w('''
/-- One part matches: `bytes.len() >= offset + value.len() && &bytes[offset..offset + value.len()] == value`
(`src/macros.rs` 170-171). The slice cannot be out of range because of the length test before it. -/
def Part.matches (p : Part) (bytes : Bytes) : Bool :=
  decide (bytes.length ≥ p.offset + p.value.length) && slice bytes p.offset p.value.length == p.value

/-- `(part && part && ...) || (part && ...) || ...` (`src/macros.rs` 170-171). -/
def SigEntry.matches (e : SigEntry) (bytes : Bytes) : Bool :=
  e.alts.any fun parts => parts.all fun p => p.matches bytes

/-- `FileFormat::from_signature` (`src/macros.rs` 168-176): the first entry that matches. -/
def fromSignature (bytes : Bytes) : Option FileFormat :=
  (signatureTable.find? fun e => e.matches bytes).map SigEntry.format

end FF''')
    open(f'{OUT}/Model/Signatures.lean', 'w').write('\n'.join(o) + '\n')

def gen_families():
    """documented families: the list in the crate documentation (src/lib.rs 48-209)"""
    lines = open('/repo/src/lib.rs').read().split('\n')
    feats = []; cur = None; text = ''
    for ln, l in enumerate(lines, 1):
        m = re.match(r'- `reader-(\w+)` - (.*)$', l)
        if m: cur = dict(name=m[1], line=ln, base=None, fam=[], head=m[2]); feats.append(cur); continue
        if l.startswith('*/'): break
        if cur is None: continue
        m = re.match(r'  \* \[(.*)\]\(`FileFormat::(\w+)`\)$', l)
        if m: cur['fam'].append(m[2]); cur['last'] = ln; continue
        if l.startswith('  '): cur['head'] += ' ' + l.strip()
    for f in feats:
        f['base'] = re.search(r'`FileFormat::(\w+)`', f['head'])[1]
    o = []; w = o.append
    w("""import Verif.Model.Detect
/-!
# The documented reader features

Generated by `tools/gen.py` from the crate documentation (`src/lib.rs` 48-209): for each
reader feature the base format it refines and the formats it adds. Do not edit by hand.
-/

namespace FF.Spec
open FileFormat

/-- The reader features (`src/lib.rs` 53-209). -/
inductive Feature where""")
    for f in feats: w(f"  | {f['name']}")
    w('  deriving DecidableEq, Repr\n')
    w('/-- Is the feature enabled? -/')
    w('def Feature.enabled (ft : Features) : Feature → Bool')
    for f in feats: w(f"  | .{f['name']} => ft.{f['name']}")
    w('\n/-- All features but `reader-txt`, which has no base format. -/')
    w('def Feature.structured : List Feature := [' + ', '.join('.'+f['name'] for f in feats if f['name']!='txt') + ']')
    w('\n/-- The format whose detection the feature refines. (`reader-txt` refines the default format: it')
    w('applies "when the file format is not recognized by its signature".) -/')
    w('def Feature.base : Feature → FileFormat')
    for f in feats: w(f"  | .{f['name']} => {f['base'] if f['name']!='txt' else 'ArbitraryBinaryData'}")
    w('\n/-- The formats listed under the feature. -/')
    w('def Feature.family : Feature → List FileFormat')
    for f in feats:
        fam = f['fam'] or [f['base']]
        w(f"  | .{f['name']} => [  -- src/lib.rs {f['line']}-{f.get('last', f['line'])}")
        for k in range(0, len(fam), 5):
            w('      ' + ', '.join(fam[k:k+5]) + (',' if k + 5 < len(fam) else ']'))
    w('\nend FF.Spec')
    open(f'{OUT}/Spec/Families.lean', 'w').write('\n'.join(o) + '\n')

def gen_readme():
    txt = open('/repo/README.md').read().split('\n')
    o = []; w = o.append
    w("""/-!
# The published list of supported formats

Generated by `tools/gen.py` from `README.md` (80-597): the headings and, below each, the
bullets, verbatim. Do not edit by hand.
-/

namespace FF.Spec
""")
    secs = []; on = False
    for ln, l in enumerate(txt, 1):
        if l.startswith('## '): on = (l == '## Supported file formats'); continue
        if not on: continue
        if l.startswith('### '): secs.append((l[4:].strip(), ln, []))
        elif l.startswith('- '): secs[-1][2].append(l[2:].strip())
    names = []
    for h, ln, items in secs:
        n = 'readme' + h.capitalize(); names.append((h, n))
        w(f'/-- `README.md` {ln}-{ln + 1 + len(items)}. -/')
        w(f'def {n} : List String := [')
        w(',\n'.join('  ' + lstr(x) for x in items) + ']\n')
    w('/-- All sections, with their headings. -/')
    w('def readme : List (String × List String) := [')
    w(',\n'.join(f'  ("{h}", {n})' for h, n in names) + ']')
    w('\nend FF.Spec')
    open(f'{OUT}/Spec/Readme.lean', 'w').write('\n'.join(o) + '\n')

if __name__ == '__main__':
    os.makedirs(f'{OUT}/Spec', exist_ok=True)
    gen_format(); gen_debug(); gen_sigs(); gen_families(); gen_readme()
