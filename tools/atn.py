#!/usr/bin/env python3
"""Copy the serialized automaton out of a generated ANTLR class as lists of numbers, one list per line of the string.

usage: atn.py <Java file> <definition name> <Lean file>"""
import re, sys

src, name, out = sys.argv[1:4]
text = open(src, encoding='utf-8').read()
start = text.index('_serializedATN =\n')
line0 = text[:start].count('\n') + 2
body = text[start:text.index(';\n\tpublic static final ATN', start)]
lits = re.findall(r'"((?:[^"\\]|\\.)*)"', body)
esc = {'b': 8, 't': 9, 'n': 10, 'f': 12, 'r': 13, '"': 34, "'": 39, '\\': 92}

def codes(s):
    i, r = 0, []
    while i < len(s):
        if s[i] != '\\':
            r.append(ord(s[i])); i += 1
        elif s[i + 1] == 'u':
            r.append(int(s[i + 2:i + 6], 16)); i += 6
        else:
            r.append(esc[s[i + 1]]); i += 2
    return r

rel = src[src.index('src/'):]
rows = [codes(l) for l in lits]
with open(out, 'w') as f:
    f.write('/-!\n# The serialized automaton of `%s`\n\nGenerated by `tools/atn.py` from `%s:%d-%d`:\n' %
            (rel.split('/')[-1], rel, line0, line0 + len(rows) - 1))
    f.write('the UTF-16 units of the string constant `_serializedATN`, one list per line of the source.\n-/\n\nnamespace BoolParser\n\n')
    groups = [rows[i:i + 20] for i in range(0, len(rows), 20)]
    for gi, g in enumerate(groups):
        f.write('/-- `%s:%d-%d`. -/\ndef %s%d : List (List Nat) := [\n' %
                (rel.split('/')[-1], line0 + 20 * gi, line0 + 20 * gi + len(g) - 1, name, gi))
        f.write(',\n'.join('  [' + ','.join(map(str, r)) + ']' for r in g))
        f.write(']\n\n')
    f.write('/-- The whole string. -/\ndef %s : List Nat :=\n  List.flatten (%s)\n\nend BoolParser\n' %
            (name, ' ++ '.join('%s%d' % (name, i) for i in range(len(groups)))))
print(len(rows), sum(map(len, rows)))
