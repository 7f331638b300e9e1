#!/usr/bin/env python3
"""Writes lean/Verif/Model/FaxTables.lean from the BitParser.add calls in /repo/pdfreader/filters/ccittfax.py (read as text)."""
import re, os
S = open('/repo/pdfreader/filters/ccittfax.py').read().split('\n')
T = {'MODE': [], 'WHITE': [], 'BLACK': [], 'UNCOMPRESSED': []}
L = {k: [] for k in T}
for i, l in enumerate(S, 1):
    m = re.match(r"\s*BitParser\.add\((\w+), *(\S+?) *, *'([01]+)'\)", l)
    if m: T[m.group(1)].append((m.group(2).strip("'"), m.group(3))); L[m.group(1)].append(i)
def mode(v):
    if v == 'h': return '.horizontal'
    if v == 'p': return '.pass'
    if v == 'u': return '.uncompressed'
    if v == 'e': return '.eofb'
    if v[0] == 'x': return '.extension'
    return '(.vertical (%d))' % int(v)
def unc(v):
    if v[0] == 'T': return '(some %s, bits!"%s")' % ('true' if v[1] == '1' else 'false', v[2:])
    return '(none, bits!"%s")' % v
out = ['/-', '  The code tables of pdfreader/filters/ccittfax.py, written by tools/genfax.py from its text.', '-/', 'import Verif.Model.Basic', '', 'namespace PdfReader', '',
 '/-- `bits!"01"` is a list of bits, expanded at elaboration time. -/', 'syntax:max (name := bitsLit) "bits!" noWs str : term', '', 'open Lean in', 'macro_rules', '  | `(bits!$s:str) => do',
 '    let bs ← s.getString.toList.mapM fun c => if c == \'1\' then `(true) else `(false)', '    let elems : Array (TSyntax `term) := bs.toArray', '    `(([$elems,*] : List Bool))', '',
 '/-- The values of the table MODE, ccittfax.py:%d-%d; `x1` to `x7` are alike. -/' % (L['MODE'][0], L['MODE'][-1]),
 'inductive FaxMode where', '  | vertical (dx : Int) | horizontal | pass | uncompressed | eofb | extension', '  deriving DecidableEq', '']
def table(name, key, typ, f, doc):
    out.append('/-- %s, ccittfax.py:%d-%d. -/' % (doc, L[key][0], L[key][-1]))
    out.append('def %s : List (%s × List Bool) :=' % (name, typ))
    items = ['(%s, bits!"%s")' % (f(v), b) for v, b in T[key]]
    lines = []
    for i in range(0, len(items), 6): lines.append('   ' + ', '.join(items[i:i+6]))
    out.append('  [' + ',\n'.join(lines)[3:] + ']')
    out.append('')
table('modeTable', 'MODE', 'FaxMode', mode, 'The table MODE')
table('whiteTable', 'WHITE', 'Nat', lambda v: v, 'The table WHITE')
table('blackTable', 'BLACK', 'Nat', lambda v: v, 'The table BLACK')
table('uncompressedTable', 'UNCOMPRESSED', '(Option Bool × List Bool)', unc, 'The table UNCOMPRESSED: pixels, after `T` and the next colour if the mode ends')
out += ['end PdfReader', '']
open(os.path.join(os.path.dirname(os.path.abspath(__file__)), '..', 'lean', 'Verif', 'Model', 'FaxTables.lean'), 'w').write('\n'.join(out))
print({k: len(v) for k, v in T.items()})
