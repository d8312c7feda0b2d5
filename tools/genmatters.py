#!/usr/bin/env python3
"""Writes lean/Verif/Proofs/MattersTable.lean: for every byte position that the signature table compares, a magic value
(entry, alternative) and a byte which, written at that position of the zero-filled input with this value, changes the
verdict. The list is only a certificate: the theorems in the generated file check it."""
import ast, os, re
R = os.path.join(os.path.dirname(__file__), '..', 'lean', 'Verif')
def load():
    s = open(f'{R}/Model/Signatures.lean').read(); ents = []; cur = None
    for line in s.split('\n'):
        m = re.match(r'  ⟨(\w+), \[', line)
        if m: cur = (m.group(1), []); ents.append(cur)
        parts = re.findall(r'⟨(\d+), b!"((?:[^"\\]|\\.)*)"⟩', line)
        if parts: cur[1].append([(int(o), ast.literal_eval('b"' + v + '"')) for o, v in parts])
    return ents
T = load()
def fill(alt):
    n = max(o + len(v) for o, v in alt); b = bytearray(n)
    for o, v in reversed(alt): b[o:o + len(v)] = v
    return b
def verdict(b):
    for f, alts in T:
        for a in alts:
            if all(b[o:o + len(v)] == v for o, v in a): return f
    return None
offs = sorted({o + i for _, alts in T for a in alts for o, v in a for i in range(len(v))})
W = []; skip = []
for i in offs:
    done = False
    for k, (f, alts) in enumerate(T):
        for j, a in enumerate(alts):
            if any(o <= i < o + len(v) for o, v in a) and not done:
                b = fill(a)
                for x in (b[i] ^ 0x80, 0xee, 0):
                    c = bytearray(b); c[i] = x
                    if x != b[i] and verdict(c) != verdict(b):
                        W.append((i, k, j, x)); done = True; break
    if not done: skip.append(i)
print('positions without effect', skip); offs = [i for i in offs if i not in skip]
rs = []
for x in offs:
    if rs and rs[-1][1] == x - 1: rs[-1][1] = x
    else: rs.append([x, x])
print(len(offs), rs)
rows = [f'({i}, {k}, {j}, {x})' for i, k, j, x in W]
out = '''import Verif.Proofs.Sparse
/-!
# Every compared position matters: certificate and check

Generated by `tools/genmatters.py`. Each row is a position, the index of an entry of the signature table, the index of one of
its alternatives, and a byte.
-/

namespace FF
open FileFormat

def mattersRows : List (Nat × Nat × Nat × UInt8) := [
%s]

/-- Writing the byte at the position changes the verdict on the zero-filled input with this magic value. -/
def rowMatters (r : Nat × Nat × Nat × UInt8) : Bool :=
  match signatureTable[r.2.1]? with
  | none => false
  | some e =>
    match e.alts[r.2.2.1]? with
    | none => false
    | some alt => Nat.blt r.1 (partsEnd alt) &&
        !(sparseVerdict alt (partsEnd alt) == sparseVerdict (⟨r.1, [r.2.2.2]⟩ :: alt) (partsEnd alt))

theorem rows_matter0 : ((mattersRows.drop 0).take 82).all rowMatters = true := by decide +kernel
theorem rows_matter1 : (mattersRows.drop 82).all rowMatters = true := by decide +kernel

theorem rows_matter : mattersRows.all rowMatters = true := by
  rw [← List.take_append_drop 82 mattersRows, List.all_append]
  exact Bool.and_eq_true_iff.mpr ⟨rows_matter0, rows_matter1⟩

end FF
''' % ',\n'.join('  ' + ', '.join(rows[i:i + 8]) for i in range(0, len(rows), 8))
open(f'{R}/Proofs/MattersTable.lean', 'w').write(out)
