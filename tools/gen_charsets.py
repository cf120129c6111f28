#!/usr/bin/env python3
"""Extract the GSM7 character tables of /repo/encoding/gsm7/charset/*.go into
lean/Verif/Model/CharsetData.lean.  Usage: gen_charsets.py /repo out.lean"""
import re, sys, os
repo, out = sys.argv[1], sys.argv[2]
d = os.path.join(repo, 'encoding/gsm7/charset')

def rune(lit):
    if lit.startswith("'"):
        body = lit[1:-1]
        if body.startswith('\\'):
            if body[1] in 'uU': return int(body[2:], 16)
            if body[1] == 'x': return int(body[2:], 16)
            return {'n': 10, 'r': 13, 'f': 12, 't': 9, '\\': 92, "'": 39}[body[1]]
        assert len(body) == 1, (lit, [hex(ord(c)) for c in body])
        return ord(body)
    return int(lit, 0)

def gostr(s):
    out = []; i = 0
    while i < len(s):
        c = s[i]
        if c == '\\':
            e = s[i+1]
            if e == 'x': out.append(int(s[i+2:i+4], 16)); i += 4; continue
            out.append({'n': 10, 'r': 13, 'f': 12, 't': 9, '\\': 92, '"': 34}[e]); i += 2; continue
        out.append(ord(c)); i += 1
    return out

L = ["/-! Generated by tools/gen_charsets.py from /repo/encoding/gsm7/charset/*.go. Do not edit. -/",
     "", "namespace Verif.Model.CharsetData", ""]
for f in sorted(os.listdir(d)):
    if not f.endswith('.go') or f in ('charset.go', 'charset_test.go'): continue
    src = open(os.path.join(d, f), encoding='utf-8').read()
    for m in re.finditer(r'(\w+Decoder)\s*=\s*Decoder\{\n(.*?)\n\t\}', src, re.S):
        name, body = m.group(1), m.group(2)
        start = src[:m.start()].count('\n') + 1; end = src[:m.end()].count('\n') + 1
        ents = []
        for line in body.split('\n'):
            s = line.strip()
            if not s or s.startswith('//'): continue
            # possibly several entries on one line
            pos = 0
            for e in re.finditer(r"(0x[0-9a-fA-F]+):\s*('(?:\\.[^']*|[^'\\])'|0x[0-9a-fA-F]+),?\s*", s):
                assert e.start() == pos, (f, s); pos = e.end()
                ents.append((int(e.group(1), 16), rune(e.group(2))))
            rest = s[pos:].strip()
            assert rest == '' or rest.startswith('//'), (f, s, rest)
        assert len({k for k, _ in ents}) == len(ents)
        L.append(f"/-- `{name}`, encoding/gsm7/charset/{f}:{start}-{end} (septet, rune). -/")
        L.append(f"def {name} : List (UInt8 × Nat) := [")
        for i in range(0, len(ents), 8):
            L.append("  " + ", ".join(f"({k}, {v})" for k, v in ents[i:i+8]) + ("," if i + 8 < len(ents) else "]"))
        L.append("")
    m = re.search(r'(\w+Runes)\s*=\s*\[\]rune\(\n(.*?)\)\n\)', src, re.S)
    if m:
        name = m.group(1)
        start = src[:m.start()].count('\n') + 1; end = src[:m.end()].count('\n') + 1
        strs = re.findall(r'"((?:\\.|[^"\\])*)"', m.group(2))
        rs = sum((gostr(s) for s in strs), [])
        L.append(f"/-- `{name}`, encoding/gsm7/charset/{f}:{start}-{end}; {len(rs)} runes. -/")
        L.append(f"def {name} : List Nat := [")
        for i in range(0, len(rs), 16):
            L.append("  " + ", ".join(str(v) for v in rs[i:i+16]) + ("," if i + 16 < len(rs) else "]"))
        L.append("")
        print(f, name, len(rs))
L.append("end Verif.Model.CharsetData")
open(out, 'w').write("\n".join(L) + "\n")
