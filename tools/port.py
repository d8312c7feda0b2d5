#!/usr/bin/env python3
"""A transliteration of src/lib.rs, src/signatures.rs and src/readers.rs of /repo into Python, written from the Rust
source and not from the Lean model. Used only to test the model: fuzz.py compares the two on mutated inputs.
Release profile, in-memory input (from_bytes), 64-bit target. Tables are parsed out of the Rust source."""
import os, re
REPO = os.environ.get('REPO', '/repo')
SRC = open(f'{REPO}/src/readers.rs').read()
M64 = 1 << 64

class Err(Exception): pass
class Panic(Exception): pass

def unescape(s):
    out = bytearray(); i = 0
    while i < len(s):
        c = s[i]
        if c == '\\':
            d = s[i + 1]
            if d == 'x': out.append(int(s[i + 2:i + 4], 16)); i += 4; continue
            out += {'n': b'\n', 'r': b'\r', 't': b'\t', '0': b'\0', '\\': b'\\', '"': b'"', "'": b"'"}[d]; i += 2; continue
        out += c.encode(); i += 1
    return bytes(out)

def signatures():
    table = []
    for line in open(f'{REPO}/src/signatures.rs'):
        line = line.strip()
        if line.startswith('//') or not line: continue
        m = re.match(r'format = (\w+)$', line)
        if m: table.append((m.group(1), [])); continue
        if line.startswith('value ='):
            parts = re.findall(r'b"((?:[^"\\]|\\.)*)"(?: offset = (\d+))?', line)
            table[-1][1].append([(unescape(v), int(o or 0)) for v, o in parts])
    return table
SIGS = signatures()

def from_signature(b):
    for fmt, alts in SIGS:
        for parts in alts:
            if all(b[o:o + len(v)] == v for v, o in parts): return fmt
    return None

def section(name):
    i = SRC.index(f'fn {name}<'); j = SRC.find('\n    /// Determines', i)
    return SRC[i:j if j > 0 else SRC.index('\n/// A trait for convenient', i)]
CFB = dict(re.findall(r'"([0-9a-f-]{36})" => Self::(\w+)', section('from_cfb_reader')))
def xml_chain():
    s = section('from_xml_reader'); s = s[s.index('Ok(if '):]
    out = []
    for cond, fmt in re.findall(r'if (.*?)\s*\{\s*Self::(\w+)', s, re.S):
        disj = [[unescape(x) for x in re.findall(r'holds\(b?"((?:[^"\\]|\\.)*)"\)', c, re.S)] for c in cond.split('||')]
        out.append((disj, fmt))
    return out
XML = xml_chain()
ZS = section('from_zip_reader')
NAMES = dict(re.findall(r'"([^"]+)" => return Ok\(Self::(\w+)\)', ZS))
MIMES = {}
for keys, fmt in re.findall(r'((?:"[^"]+"\s*\|?\s*)+)=> \{?\s*Self::(\w+)', ZS[ZS.index('match data.trim()'):]):
    for k in re.findall(r'"([^"]+)"', keys): MIMES[k] = fmt

class Cur:
    """Cursor<&[u8]>"""
    def __init__(self, d): self.d = d; self.p = 0
    def start(self, n): self.p = n; return n
    def rel(self, base, i):
        q = base + i
        if q < 0 or q >= M64: raise Err()
        self.p = q; return q
    def cur(self, i): return self.rel(self.p, i)
    def end(self, i=0): return self.rel(len(self.d), i)
    def read(self, n):
        r = self.d[min(self.p, len(self.d)):min(self.p, len(self.d)) + n]; self.p += len(r); return r
    def bytes(self, n):
        if n and self.p + n > len(self.d): raise Err()
        return self.read(n)
    def u(self, n, e): return int.from_bytes(self.bytes(n), e)
    def guid(self):
        b = self.bytes(16)
        return ''.join(('-' if i in (5, 7, 8, 10) else '') + '%02x' % b[i] for i in [3, 2, 1, 0, 5, 4, 7, 6, 8, 9, 10, 11, 12, 13, 14, 15])
    def string(self, n): return self.bytes(n).decode('utf-8', 'replace')

def i64(n): n %= M64; return n - M64 if n >= 1 << 63 else n
def sat(a, b): return max(0, a - b)
CHECKED = False          # overflow checks, as in a debug build
class Panic(Exception): pass
def wsub(a, b):          # i64 - i64
    if CHECKED and not -(1 << 63) <= a - b < 1 << 63: raise Panic()
    return i64(a - b)
def uadd(a, b):          # u64 + u64
    if CHECKED and a + b >= M64: raise Panic()
    return (a + b) % M64
def usub(a, b):          # u64 - u64
    if CHECKED and a < b: raise Panic()
    return (a - b) % M64

def asf(r):
    r.start(24); n = r.u(4, 'little'); r.cur(2)
    a = v = False
    for _ in range(min(256, n)):
        g = r.guid(); size = r.u(8, 'little')
        if g == 'b7dc0791-a9b7-11cf-8ee6-00c00c205365':
            t = r.guid()
            if t == 'f8699e40-5b4d-11cf-a8fd-00805f5c442b': a = True
            elif t == 'bc19efc0-5b4d-11cf-a8fd-00805f5c442b': v = True
            r.cur(wsub(i64(size), 40))
        elif g == 'd2d0a440-e307-11d2-97f0-00a0c95ea850':
            count = r.u(2, 'little'); off = r.p
            for _ in range(min(32, count)):
                ln = r.u(2, 'little'); name = r.bytes(min(64, ln))
                if name.startswith(b'D\0V\0R\0 \0F\0i\0l\0e\0 \0V\0e\0r\0s\0i\0o\0n\0'): return 'MicrosoftDigitalVideoRecording'
                r.cur(sat(ln, 64) + 2); ln = r.u(2, 'little'); r.cur(ln)
            r.start(usub(uadd(off, size), 26))
        else: r.cur(wsub(i64(size), 24))
    return 'WindowsMediaVideo' if v else 'WindowsMediaAudio' if a else 'AdvancedSystemsFormat'

def cfb(r):
    r.start(26); mv = r.u(2, 'little'); ss = 512 if mv == 3 else 4096
    r.cur(20); loc = r.u(4, 'little'); r.start(ss * (1 + loc) + 80)
    c = r.guid()
    if c in CFB: return CFB[c]
    r.cur(32)
    if r.bytes(64).startswith(b'M\0a\0t\0O\0S\0T\0'): return 'MicrosoftWorksWordProcessor'
    r.cur(64)
    if r.bytes(64).startswith(b'W\0k\0s\0S\0S\0W\0o\0r\0k\0B\0o\0o\0k\0'): return 'MicrosoftWorks6Spreadsheet'
    return 'CompoundFileBinary'

def lz(b): return 8 - b.bit_length()
def ebml(r):
    ln = r.end(); r.start(0); a = v = s = False; count = 0
    while count < 256 and r.p < ln:
        b = r.u(1, 'big'); nb = lz(b) + 1
        if nb > 4: raise Err()
        i = b
        for _ in range(1, nb): i = (i << 8) | r.u(1, 'big')
        b = r.u(1, 'big'); nb = lz(b) + 1
        if nb > 8: raise Err()
        size = b & ((128 >> lz(b)) - 1)
        for _ in range(1, nb): size = (size << 8) | r.u(1, 'big')
        if i in (0x1A45DFA3, 0x18538067, 0x1654AE6B, 0xAE, 0xE0): pass
        elif i == 0x4282:
            d = r.bytes(min(8, size))
            if d.startswith(b'webm'): return 'Webm'
            if not d.startswith(b'matroska'): return 'ExtensibleBinaryMetaLanguage'
            r.cur(i64(sat(size, 8)))
        elif i == 0x86:
            d = r.bytes(min(64, size))
            if d.startswith(b'A_'): a = True
            elif d.startswith(b'V_'): v = True
            elif d.startswith(b'S_'): s = True
            r.cur(i64(sat(size, 64)))
        elif i == 0x53B8:
            if r.u(1, 'big') > 0: return 'Matroska3dVideo'
        elif i == 0x1F43B675: break
        else: r.cur(i64(size))
        count += 1
    return 'MatroskaVideo' if v else 'MatroskaAudio' if a else 'MatroskaSubtitles' if s else 'ExtensibleBinaryMetaLanguage'

def exe(r):
    ln = r.end(); r.start(60); off = r.u(4, 'little')
    if off + 4 < ln:
        r.start(off); sg = r.bytes(4)
        if sg == b'PE\0\0':
            r.cur(18); c = r.u(2, 'little')
            return 'DynamicLinkLibrary' if c & 0x2000 else 'PortableExecutable'
        if sg[:2] in (b'LE', b'LX'): return 'LinearExecutable'
        if sg[:2] == b'NE': return 'NewExecutable'
    return 'MsDosExecutable'

def id3(r):
    off = 0
    while True:
        r.start(off); b = r.bytes(10)
        if b[:3] != b'ID3': break
        ts = ((b[6] & 127) << 21) | ((b[7] & 127) << 14) | ((b[8] & 127) << 7) | (b[9] & 127)
        nx = off + 10 + ts
        if b[5] & 0x40: nx += r.u(4, 'big')
        if b[5] & 0x10: nx += 10
        off = nx
    r.start(off); b = r.bytes(4)
    if b == b'fLaC': return 'FreeLosslessAudioCodec'
    if b[:2] in (b'\xff\xe2', b'\xff\xe3', b'\xff\xf2', b'\xff\xf3', b'\xff\xfa', b'\xff\xfb'): return 'Mpeg12AudioLayer3'
    return 'Id3v2'

def mp4(r):
    ln = r.end(); r.start(0); a = v = s = False; count = 0
    while count < 256 and r.p < ln:
        size = r.u(4, 'big'); t = r.bytes(4)
        if size == 1: size = r.u(8, 'big')
        if t in (b'moov', b'trak', b'mdia'): pass
        elif t == b'hdlr':
            r.cur(8); h = r.bytes(4)
            if h == b'vide': v = True
            elif h == b'soun': a = True
            elif h in (b'sbtl', b'subt', b'text'): s = True
            r.cur(wsub(i64(size), 20))
        else: r.cur(wsub(i64(size), 8))
        count += 1
    return 'Mpeg4Part14Video' if v else 'Mpeg4Part14Audio' if a else 'Mpeg4Part14Subtitles' if s else 'Mpeg4Part14'

def pdf(r):
    return 'AdobeIllustratorArtwork' if b'AIPrivateData' in r.d[5:5 + (1 << 25)] else 'PortableDocumentFormat'

def rm(r):
    r.start(14); n = r.u(4, 'big'); a = v = False
    for _ in range(min(64, sat(n, 1))):
        t = r.bytes(4); cs = r.u(4, 'big')
        if t == b'MDPR':
            off = r.p; r.cur(32); sn = r.u(1, 'big'); r.cur(sn); ms = r.u(1, 'big'); m = r.bytes(ms)
            if m.startswith(b'audio/'): a = True
            elif m.startswith(b'video/'): v = True
            r.start(off)
        r.cur(cs - 8)
    return 'Realvideo' if v else 'Realaudio' if a else 'Realmedia'

def sqlite3(r):
    r.start(100); return 'Sketch' if b'com.bohemiancoding.sketch3' in r.read(32768) else 'Sqlite3'

WS = set(list(range(9, 14)) + [0x20, 0x85, 0xA0, 0x1680] + list(range(0x2000, 0x200B)) + [0x2028, 0x2029, 0x202F, 0x205F, 0x3000])
def txt(r):
    d = r.d[:65536]; p = 0
    for _ in range(16):
        if p >= len(d): break
        q = d.find(b'\n', p); q = len(d) if q < 0 else q + 1
        line = d[p:q]; p = q
        try: t = line.decode('utf-8')
        except UnicodeDecodeError: raise Err()
        if t.endswith('\n'):
            t = t[:-1]
            if t.endswith('\r'): t = t[:-1]
        if any((ord(c) < 32 or 127 <= ord(c) < 160) and ord(c) not in WS for c in t): raise Err()
    return 'PlainText'

def xml(r):
    r.start(5); b = r.read(8192)
    for disj, fmt in XML:
        if any(all(m in b for m in conj) for conj in disj): return fmt
    return 'ExtensibleMarkupLanguage'

def zip_(r):
    ln = r.end(); off = sat(ln, 65557); r.start(off)
    b = r.bytes(max(22, min(ln, 65557))); bi = b.rfind(b'PK\x05\x06')
    if bi < 0: raise Err()
    eo = off + bi; z64 = False
    if eo >= 20:
        r.start(eo - 20); z64 = r.bytes(4) == b'PK\x06\x07'
    if z64:
        r.cur(4); e64 = r.u(8, 'little'); r.start(uadd(e64, 32)); n = r.u(8, 'little'); r.cur(8); so = r.u(8, 'little')
    else:
        r.start(eo + 10); n = r.u(2, 'little'); r.cur(4); so = r.u(4, 'little')
    r.start(so); fmt = 'Zip'
    for _ in range(min(1024, n)):
        r.cur(20); cs = r.u(4, 'little'); us = r.u(4, 'little'); fl = r.u(2, 'little'); xl = r.u(2, 'little'); cl = r.u(2, 'little')
        r.cur(8); lo = r.u(4, 'little'); f = r.string(fl)
        if f == 'META-INF/MANIFEST.MF': fmt = 'JavaArchive'
        elif f in NAMES: return NAMES[f]
        elif f == 'mimetype' and cs == us:
            r.start(lo + 26); a = r.u(2, 'little'); e = r.u(2, 'little'); r.cur(a + e)
            t = r.string(cs)
            while t and ord(t[0]) in WS: t = t[1:]
            while t and ord(t[-1]) in WS: t = t[:-1]
            return MIMES.get(t, 'Zip')
        else:
            if f.startswith('Fusion[Active]/'): return 'Autodesk123d'
            if f.startswith('circuitdiagram/'): return 'CircuitDiagramDocument'
            if f.startswith('dwf/'): return 'DesignWebFormatXps'
            if f.endswith('.fb2') and '/' not in f: return 'FictionbookZip'
            if f.startswith('FusionAssetName[Active]/'): return 'Fusion360'
            if f.startswith('Payload/') and '.app/' in f: return 'IosAppStorePackage'
            if f.startswith('word/'): return 'OfficeOpenXmlDocument'
            if f.startswith('visio/'): return 'OfficeOpenXmlDrawing'
            if f.startswith('ppt/'): return 'OfficeOpenXmlPresentation'
            if f.startswith('xl/'): return 'OfficeOpenXmlSpreadsheet'
            if f.startswith('Documents/') and f.endswith('.fpage'): return 'Openxps'
            if f.startswith('SpaceClaim/'): return 'SpaceclaimDocument'
            if f.startswith('3D/') and f.endswith('.model'): return 'ThreeDimensionalManufacturingFormat'
            if f.endswith(('.usd', '.usda', '.usdc')) and '/' not in f: return 'UniversalSceneDescriptionZip'
        r.cur(xl + cl)
    return fmt

READERS = dict(AdvancedSystemsFormat=asf, CompoundFileBinary=cfb, ExtensibleBinaryMetaLanguage=ebml, MsDosExecutable=exe,
               Id3v2=id3, Mpeg4Part14=mp4, PortableDocumentFormat=pdf, Realmedia=rm, Sqlite3=sqlite3,
               ExtensibleMarkupLanguage=xml, Zip=zip_)

def generic(d):
    try: return txt(Cur(d))
    except Err: return 'ArbitraryBinaryData'

def from_bytes(d):
    if not d: return 'Empty'
    fmt = from_signature(d[:36870])
    if fmt is None: return generic(d)
    if fmt not in READERS: return fmt
    try: return READERS[fmt](Cur(d))
    except Err: return generic(d)

if __name__ == '__main__':
    import sys
    print(len(SIGS), sum(len(a) for _, a in SIGS), len(CFB), len(XML), len(NAMES), len(MIMES))
    for p in sys.argv[1:]: print(p, from_bytes(open(p, 'rb').read()))
