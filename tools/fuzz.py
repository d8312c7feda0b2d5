#!/usr/bin/env python3
"""Differential test of the Lean model against tools/port.py (a transliteration of the Rust source).

usage: fuzz.py gen SEED COUNT OUT      writes COUNT inputs
       fuzz.py cmp IN VERDICTS         compares the verdicts (one line for each input: release and debug profile) of the model with those of the port
The model's side is tools/FuzzMain.lean.txt, compiled in a scratch copy of lean/ (see DESIGN.md, "Validation of the model")."""
import glob, random, re, struct, sys, os
sys.path.insert(0, os.path.dirname(os.path.abspath(__file__)))
import port
R = random.Random()

def nm():
    t = open(f'{port.REPO}/src/formats.rs').read()
    return dict(re.findall(r'format = (\w+)\s*name = "([^"]*)"', t))
NAME = nm()
FIX = [open(p, 'rb').read() for p in sorted(glob.glob(f'{port.REPO}/fixtures/*/*'))]
FIX = [f for f in FIX if len(f) <= 80000]
SPECIAL = [0, 1, 2, 7, 8, 15, 16, 19, 20, 21, 24, 25, 31, 32, 40, 63, 64, 65, 127, 128, 255]
def rnd(n): return bytes(R.choice([0, 0, 0, 255, 128, R.randrange(256), R.randrange(256)]) for _ in range(n))
def num(bits):
    k = R.randrange(8)
    if k < 4: return R.choice(SPECIAL) % (1 << bits)
    if k == 4: return R.randrange(1 << bits)
    if k == 5: return (1 << (bits - 1)) + R.randrange(-8, 44)
    if k == 6: return (-R.randrange(1, 60)) % (1 << bits)
    return R.randrange(1 << R.randrange(1, bits + 1))
def guid(s):
    a = bytes.fromhex(s.replace('-', ''))
    return a[3::-1] + a[5:3:-1] + a[7:5:-1] + a[8:]

def asf():
    G = ['b7dc0791-a9b7-11cf-8ee6-00c00c205365', 'd2d0a440-e307-11d2-97f0-00a0c95ea850', '8cabdca1-a947-11cf-8ee4-00c00c205365']
    T = ['f8699e40-5b4d-11cf-a8fd-00805f5c442b', 'bc19efc0-5b4d-11cf-a8fd-00805f5c442b', '00000000-0000-0000-0000-000000000000']
    objs = b''; n = R.randrange(0, 7)
    for _ in range(n):
        g = R.choice(G)
        if g == G[0]: body = guid(R.choice(T)) + rnd(R.randrange(0, 30))
        elif g == G[1]:
            c = R.randrange(0, 4); body = struct.pack('<H', c)
            for _ in range(c):
                name = R.choice([b'T\0i\0', b'D\0V\0R\0 \0F\0i\0l\0e\0 \0V\0e\0r\0s\0i\0o\0n\0\0\0', rnd(R.randrange(0, 90))]); val = rnd(R.randrange(0, 9))
                body += struct.pack('<H', len(name)) + name + b'\0\0' + struct.pack('<H', len(val)) + val
            body += rnd(R.choice([0, 0, 3]))
        else: body = rnd(R.randrange(0, 40))
        size = len(body) + 24
        if R.random() < .15: size = R.choice([num(64), size + R.randrange(-30, 30)]) % (1 << 64)
        objs += guid(g) + struct.pack('<Q', size) + body
    k = n if R.random() < .8 else num(32)
    return b'\x30\x26\xB2\x75\x8E\x66\xCF\x11\xA6\xD9\x00\xAA\x00\x62\xCE\x6C' + struct.pack('<QI', len(objs) + 30, k) + b'\1\2' + objs

def vint(n, w=None):
    for i in range(1, 9):
        if (w is None or i >= w) and n < (1 << (7 * i)) - (0 if R.random() < .1 else 1): return ((1 << (7 * i)) | n).to_bytes(i, 'big')
    return b'\x01' + (n % (1 << 56)).to_bytes(7, 'big')
def ebml():
    out = b'\x1A\x45\xDF\xA3' + vint(R.randrange(0, 60))
    for _ in range(R.choice([3, 5, 9, 9, 300 if R.random() < .02 else 4])):
        k = R.choice([0x1A45DFA3, 0x18538067, 0x1654AE6B, 0xAE, 0xE0, 0x4282, 0x4282, 0x86, 0x86, 0x86, 0x53B8, 0x1F43B675, 0xEC, 0x4286, 0xD7])
        i = k.to_bytes((k.bit_length() + 7) // 8, 'big')
        if R.random() < .02: i = rnd(R.randrange(1, 5))
        if k == 0x4282: b = R.choice([b'webm', b'matroska', b'matroska', b'matroska', b'matroska\0\0xyz', b'other', b'matrosk'])
        elif k == 0x86: b = R.choice([b'A_OPUS', b'V_VP9', b'S_TEXT/UTF8', b'X', b'', b'V', b'A_' + b'x' * 80])
        elif k == 0x53B8: b = bytes([R.choice([0, 0, 1, 255])])
        elif k in (0xEC, 0x4286, 0xD7): b = rnd(R.randrange(0, 20))
        else: b = b''
        n = len(b) if R.random() < .92 else num(56)
        if k == 0x53B8 and R.random() < .9: n = 1
        out += i + vint(n, R.choice([None, None, None, 8, 4])) + b
    return out + rnd(R.choice([0, 0, 3]))

def exe():
    off = R.choice([64, 64, 70, 128, 60, 62, num(32)])
    d = bytearray(b'MZ' + rnd(58) + struct.pack('<I', off) + rnd(R.choice([0, 4, 5, 30, 90])))
    if off < 4000:
        sg = R.choice([b'PE\0\0', b'PE\0\0', b'LE', b'LX', b'NE', b'PE\0\1']) + rnd(R.choice([0, 0, 1, 2, 3, 17, 18]))
        if R.random() < .6: sg += rnd(14) + R.choice([b'\0\x20', b'\2\x21', b'\0\1', b'\xff\xdf'])
        if R.random() < .5: sg += rnd(5)
        d = d[:off].ljust(off, b'\0') + sg if R.random() < .7 else d[:max(off, 64)].ljust(off, b'\0') + sg
    return bytes(d)

def id3():
    out = b''
    for _ in range(R.choice([1, 1, 2, 3])):
        n = R.randrange(0, 40); fl = R.choice([0, 0, 0x40, 0x10, 0x50, 0xFF, 0x80])
        s = bytes([n >> 21 & 127, n >> 14 & 127, n >> 7 & 127, n & 127])
        if R.random() < .1: s = rnd(4)
        body = b''
        if fl & 0x40: body += struct.pack('>I', R.choice([0, 6, 4, num(32)]))
        body = (body + rnd(n))[:n] if R.random() < .5 else body + rnd(n)
        out += b'ID3\4\0' + bytes([fl]) + s + body + (b'3DI\4\0\0\0\0\0\0' if fl & 0x10 else b'')
    return out + R.choice([b'fLaC', b'\xff\xfb\x90', b'\xff\xe2', b'\xff\xf3', b'\xff\xf4', b'xxxx', b'']) + rnd(R.choice([0, 2, 10, 60]))

def box(t, b, w=None):
    if R.random() < .12: return struct.pack('>I', 1) + t + struct.pack('>Q', R.choice([len(b) + 16, len(b) + 8, num(64)])) + b
    n = len(b) + 8
    if R.random() < .08: n = R.choice([num(32), n + R.randrange(-8, 9)]) % (1 << 32)
    return struct.pack('>I', n) + t + b
def mp4():
    out = box(b'ftyp', R.choice([b'isom', b'mp42', b'mp41', b'iso2', b'avc1']) + b'\0\0\2\0isom')
    if R.random() < .9: out = struct.pack('>I', 20) + out[4:] if len(out) == 20 else out
    n = R.choice([2, 4, 6, 10, 300 if R.random() < .02 else 3])
    for _ in range(n):
        k = R.randrange(8)
        if k == 0: out += struct.pack('>I', R.choice([0, 8, 100, 1])) + R.choice([b'moov', b'trak', b'mdia'])
        elif k < 5: out += box(b'hdlr', b'\0' * 8 + R.choice([b'vide', b'soun', b'sbtl', b'subt', b'text', b'mdir']) + rnd(R.randrange(0, 20)))
        else: out += box(R.choice([b'free', b'mdat', b'mvhd']), rnd(R.randrange(0, 30)))
    return out + rnd(R.choice([0, 0, 0, 5]))

def rm():
    chunks = b''; n = R.randrange(0, 5)
    for _ in range(n):
        if R.random() < .7:
            sn = rnd(R.randrange(0, 10)); mt = R.choice([b'audio/x-pn-realaudio', b'video/x-pn-realvideo', b'logical-fileinfo', b'audio', b''])
            body = rnd(32) + bytes([len(sn) if R.random() < .9 else R.randrange(256)]) + sn + bytes([len(mt) if R.random() < .9 else R.randrange(256)]) + mt + rnd(R.randrange(0, 10)); t = b'MDPR'
        else: t = R.choice([b'PROP', b'CONT', b'DATA']); body = rnd(R.randrange(0, 30))
        sz = len(body) + R.choice([16, 16, 16, 8])
        if R.random() < .1: sz = num(32)
        if sz == len(body) + 16: body += rnd(0)
        chunks += t + struct.pack('>I', sz) + body
    return b'.RMF' + struct.pack('>IHI', 18, 0, 0) + struct.pack('>I', R.choice([n + 1, n + 1, n, 0, 1, num(32)])) + chunks

def xml():
    ms = [m for disj, _ in port.XML for conj in disj for m in conj]
    out = R.choice([b'<?xml version="1.0"?>', b'<?xml ', b'\xef\xbb\xbf<?xml version="1.0"?>'])
    for _ in range(R.randrange(0, 4)):
        m = R.choice(ms)
        if R.random() < .2: m = m[:-1] + bytes([m[-1] ^ 32])
        if R.random() < .1: m = m[:R.randrange(len(m))]
        out += R.choice([b'\n', b' ', b'', b'x' * R.choice([10, 8170, 8190])]) + m
    return out + R.choice([b'', b'>', b' a="b">\n'])

def zipf():
    names = list(port.NAMES) + ['META-INF/MANIFEST.MF', 'META-INF/MANIFEST.MF', 'mimetype', 'mimetype', 'mimetype', 'readme', 'Fusion[Active]/x', 'circuitdiagram/a', 'dwf/a',
        'a.fb2', 'a/b.fb2', 'FusionAssetName[Active]/a', 'Payload/x.app/y', 'Payload/x', 'word/a', 'visio/a', 'ppt/a', 'xl/a', 'Documents/1/a.fpage', 'Documents/a', 'SpaceClaim/a', '3D/a.model', '3D/a',
        'a.usd', 'a.usda', 'a.usdc', 'b/a.usdc', '\u00e9.usdz', 'word', '.app/Payload/', 'é.fb2']
    plain = [n for n in names if n in ('readme', 'Payload/x', 'Documents/a', '3D/a', 'a/b.fb2', 'b/a.usdc', 'META-INF/MANIFEST.MF')]
    loc = b'PK\3\4'; loc += b'' ; cd = b''; n = R.randrange(0, 6)
    data = b'PK\3\4' + rnd(22) + struct.pack('<HH', 1, 0) + b'z'
    for _ in range(n):
        nm_ = R.choice(names if R.random() < .45 else plain).encode()
        if R.random() < .05: nm_ = nm_[:R.randrange(len(nm_) + 1)] + b'\xff' + nm_[R.randrange(len(nm_) + 1):]
        cont = b''
        if nm_ == b'mimetype':
            cont = R.choice(list(port.MIMES) + ['application/zip']).encode()
            if R.random() < .3: cont = R.choice([b' ', b'\n', b'\xc2\xa0', b'\xe2\x80\x83', b'\xff']) + cont
            if R.random() < .3: cont += R.choice([b' ', b'\n', b'\r\n', b'\0', b'\xe3\x80\x80', b'\xe2\x80\x8b'])
        ex = rnd(R.choice([0, 0, 4])); lo = len(data)
        data += b'PK\3\4' + rnd(22) + struct.pack('<HH', len(nm_), len(ex)) + nm_ + ex + cont
        cs = us = len(cont)
        if R.random() < .1: us = R.choice([0, cs + 1, num(32)])
        if R.random() < .05: cs = us = num(32)
        x, c = rnd(R.choice([0, 0, 3])), rnd(R.choice([0, 0, 3]))
        if R.random() < .05: lo = num(32)
        cd += b'PK\1\2' + rnd(16) + struct.pack('<II', cs, us) + struct.pack('<HHH', len(nm_) if R.random() < .97 else num(16), len(x), len(c)) + rnd(8) + struct.pack('<I', lo) + nm_ + x + c
    off = len(data); cnt = n
    if R.random() < .08: cnt = num(16)
    if R.random() < .06: off = num(32)
    out = data + cd
    if R.random() < .3:
        e64 = len(out); out += b'PK\6\6' + rnd(20) + rnd(8) + struct.pack('<Q', cnt if R.random() < .8 else num(64)) + rnd(8) + struct.pack('<Q', off if R.random() < .9 else num(64))
        out += rnd(R.choice([0, 0, 8])) + b'PK\6\7' + rnd(4) + struct.pack('<Q', e64 if R.random() < .85 else num(64)) + rnd(4); cnt = 0xFFFF
    cm = R.choice([b'', b'', b'hello', b'PK\5\6', b'aPK\5\6' + rnd(30), rnd(70000) if R.random() < .02 else b''])
    out += b'PK\5\6' + rnd(4) + rnd(2) + struct.pack('<H', cnt) + rnd(4) + struct.pack('<I', off) + struct.pack('<H', len(cm) % 65536) + cm
    return out

def cfb():
    v = R.choice([3, 3, 4, 0]); loc = R.choice([0, 0, 1, 2, num(32)]); ss = 512 if v == 3 else 4096
    d = b'\xD0\xCF\x11\xE0\xA1\xB1\x1A\xE1' + b'\0' * 18 + struct.pack('<H', v) + b'\0' * 20 + struct.pack('<I', loc)
    if loc > 3: return d + rnd(100)
    d = d.ljust(ss * (1 + loc) + 80, b'\0') + guid(R.choice(list(port.CFB) + ['0' * 32] * 20)) + b'\0' * 32
    d += R.choice([b'M\0a\0t\0O\0S\0T\0', b'x\0']).ljust(64, b'\0') + b'\0' * 64 + R.choice([b'W\0k\0s\0S\0S\0W\0o\0r\0k\0B\0o\0o\0k\0', b'y']).ljust(R.choice([64, 64, 63]), b'\0')
    return d

def text():
    cs = ['a', 'b', ' ', '\n', '\r\n', '\r', '\t', '\u00e9', '\u20ac', '\U0001f600', '\u0085', '\u000b', '\u2028', '\u00a0']
    bad = ['\x00', '\x1b', '\x7f', '\u0080', '\u009f', '\x08', '\x1f', '\x1c']
    t = b''.join(R.choice(cs).encode() for _ in range(R.randrange(1, 60)))
    if R.random() < .2: t += b'\n' * R.choice([10, 14, 15, 16, 17])
    if R.random() < .4: t += R.choice(bad).encode() + b'z'
    if R.random() < .3: t += R.choice([b'\xff', b'\xc3', b'\xe2\x82', b'\xed\xa0\x80', b'\xf4\x90\x80\x80', b'\xc0\x80', b'\xe0\x80\x80', b'\xf0\x80\x80\x80', b'\xf8']) + R.choice([b'', b'z', b'\n'])
    if R.random() < .01: t = t + b'q' * (65536 - len(t) - R.randrange(0, 4)) + R.choice([b'\x00', '\u20ac'.encode(), b'zz'])
    return t

def sql():
    return b'SQLite format 3\0' + rnd(84 + R.randrange(0, 40)) + R.choice([b'com.bohemiancoding.sketch3', b'com.bohemiancoding.sketch', b'']) + rnd(R.randrange(0, 9))
def pdf():
    return b'%PDF-' + R.choice([b'', b'AIPrivateData', rnd(20) + b'AIPrivateData', rnd(20) + b'AIPrivateDat' + rnd(3), b'x' * 32760 + b'AIPrivateData' if R.random() < .05 else b'1.4'])
def sig():
    fmt, alts = R.choice(port.SIGS); d = bytearray()
    for _ in range(R.choice([1, 1, 2])):
        for v, o in R.choice(alts):
            if o > 40000: continue
            if len(d) < o + len(v): d += rnd(o - len(d)) if R.random() < .5 and o - len(d) > 0 and o - len(d) < 1000 else bytes(max(0, o - len(d)))
            d[o:o + len(v)] = v
        fmt, alts = R.choice(port.SIGS)
    if R.random() < .3 and d: d[R.randrange(len(d))] ^= 1 << R.randrange(8)
    if R.random() < .2: d = d[:R.randrange(len(d) + 1)]
    return bytes(d) + rnd(R.choice([0, 0, 1, 40]))
def fixture():
    return R.choice(FIX)
GEN = [asf, ebml, exe, id3, mp4, rm, xml, zipf, zipf, cfb, text, sql, pdf, sig, sig, fixture, fixture]

def corrupt(d):
    d = bytearray(d); k = R.randrange(10)
    if k < 5 or not d: return bytes(d)
    if k < 7:
        for _ in range(R.choice([1, 1, 2, 4])): d[R.randrange(min(len(d), R.choice([64, 400, 100000])))] = R.choice([0, 255, 128, 1, R.randrange(256)])
    elif k == 7: d = d[:R.randrange(len(d) + 1)]
    elif k == 8: i = R.randrange(len(d)); d[i:i] = rnd(R.choice([1, 2, 4, 8]))
    else: i = R.randrange(len(d)); del d[i:i + R.choice([1, 2, 4, 8])]
    return bytes(d)

if __name__ == '__main__':
    if sys.argv[1] == 'gen':
        R.seed(int(sys.argv[2]))
        with open(sys.argv[4], 'wb') as f:
            for _ in range(int(sys.argv[3])):
                d = corrupt(R.choice(GEN)()); f.write(struct.pack('<I', len(d)) + d)
    else:
        d = open(sys.argv[2], 'rb').read(); p = 0; bad = 0; n = 0; seen = {}
        for line in open(sys.argv[3]):
            k = struct.unpack('<I', d[p:p + 4])[0]; x = d[p + 4:p + 4 + k]; p += 4 + k
            w = []
            for port.CHECKED in (False, True):
                try: w.append(NAME[port.from_bytes(x)])
                except port.Panic: w.append('PANIC')
            want = '\t'.join(w); got = line.rstrip('\n'); n += 1
            for v in w: seen[v] = seen.get(v, 0) + 1
            if want != got:
                bad += 1
                if bad < 10: print('MISMATCH', n, want, '|', got, x[:200].hex())
        print(n, 'cases', bad, 'mismatches', len(seen) - ('PANIC' in seen), 'verdicts', seen.get('PANIC', 0), 'panics', 'incomplete' if p != len(d) else '')
