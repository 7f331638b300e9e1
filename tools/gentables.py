#!/usr/bin/env python3
"""Writes lean/Verif/Model/GlyphTables.lean and EncodingTables.lean from the literal tables in /repo/pdfreader/codecs (parsed, not run)."""
import ast, os
R = '/repo/pdfreader/codecs/'
OUT = os.path.join(os.path.dirname(os.path.abspath(__file__)), '..', 'lean', 'Verif', 'Model')
def load(fn):
    out = {}
    for n in ast.walk(ast.parse(open(R + fn).read())):
        if isinstance(n, ast.Assign):
            try: out[n.targets[0].id] = ast.literal_eval(n.value)
            except Exception: pass
    return out
def key(s):
    k = 1
    for b in s.encode('ascii'): k = k * 256 + b
    return k
def tree(name, src, d, f):
    """Balanced search tree by key, in pieces."""
    items = sorted((key(k), k, v) for k, v in d.items())
    pieces = []
    def build(lo, hi, depth):
        if lo >= hi: return '.nil'
        m = (lo + hi) // 2
        k, n, v = items[m]
        if depth == 5:
            pass
        l, r = build(lo, m, depth + 1), build(m + 1, hi, depth + 1)
        t = '.node %s k!"%s" [%s] %s' % (l if l == '.nil' else '(' + l + ')' if not l.startswith(name) else l, n, ', '.join('0x%04X' % ord(c) for c in v),
                                         r if r == '.nil' else '(' + r + ')' if not r.startswith(name) else r)
        if depth == 6:
            pn = '%s%d' % (name, len(pieces))
            pieces.append((pn, t))
            return pn
        return t
    top = build(0, len(items), 0)
    for pn, t in pieces:
        f.write('/-- Part of %s. -/\ndef %s : GlyphTree :=\n  %s\n\n' % (src, pn, t))
    f.write('/-- %s, as a search tree by the keys of the names (%d entries). -/\ndef %s : GlyphTree :=\n  %s\n\n' % (src, len(items), name, top))
with open(os.path.join(OUT, 'GlyphTables.lean'), 'w') as f:
    f.write('''/-
  Glyph lists of pdfreader/codecs/agl.py and zapfdingbatsgl.py. Generated by tools/gentables.py.
-/
import Verif.Model.Glyphs

namespace PdfReader

''')
    tree('aglTree', '`AGL`, codecs/agl.py', load('agl.py')['AGL'], f)
    tree('zapfTree', '`ZAPFDINGBATS_GL`, codecs/zapfdingbatsgl.py', load('zapfdingbatsgl.py')['ZAPFDINGBATS_GL'], f)
    f.write('end PdfReader\n')
with open(os.path.join(OUT, 'EncodingTables.lean'), 'w') as f:
    f.write('''/-
  Tables of the built-in encodings of pdfreader/codecs. Generated by tools/gentables.py.
-/
import Verif.Model.Basic

namespace PdfReader

''')
    for fn in ('winansi', 'standard', 'macroman', 'pdfdoc'):
        d = load(fn + '.py')
        ls = ['(0x%04X, %d)' % (ord(c), b[0]) for c, b in d['encode_table'].items()]
        f.write('/-- `encode_table`, codecs/%s.py: code points and bytes. -/\ndef %sEncode : List (Nat × Byte) :=\n  [%s]\n\n' % (
            fn, fn, ',\n   '.join(', '.join(ls[i:i+8]) for i in range(0, len(ls), 8))))
        ls = ['(%d, b!"%s")' % (c, n) for c, n in d['decode_table'].items()]
        assert all('"' not in n and '\\' not in n for n in d['decode_table'].values())
        f.write('/-- `decode_table`, codecs/%s.py. -/\ndef %sDecode : List (Nat × Bytes) :=\n  [%s]\n\n' % (
            fn, fn, ',\n   '.join(', '.join(ls[i:i+6]) for i in range(0, len(ls), 6))))
    f.write('end PdfReader\n')
