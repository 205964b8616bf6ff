#!/usr/bin/env python3
"""Writes lean/Verif/Model/ShippedFormats.lean from /repo/src/addressformatrc."""
import re
cur = None
table = []
for n, line in enumerate(open('/repo/src/addressformatrc', encoding='utf8'), 1):
    line = line.rstrip('\n')
    m = re.match(r'\[(\w+)\]$', line)
    if m:
        table.append((m.group(1), n, []))
    elif line.strip():
        k, v = line.split('=', 1)
        assert not re.search(r'\\[^\\]', v.replace('\\\\', '')), line
        table[-1][2].append((k, v.replace('\\\\', '\\')))
def lit(s):
    if all(ord(c) < 128 for c in s):
        return 'q! "%s"' % s.replace('\\', '\\\\').replace('"', '\\"')
    u = s.encode('utf-16-le')
    return '[' + ', '.join(str(u[i] + 256 * u[i + 1]) for i in range(0, len(u), 2)) + ']'
out = ['''import Verif.Model.AddressFormat
/-
  The formats the library is built with: src/addressformatrc, read from ":/org.kde.kcontacts/addressformatrc" (addressformat.cpp:104-113).
  Generated by tools/gen_formats.py; the escape `\\\\\\\\` of the file is replaced by `\\\\` as KConfig does.
-/
namespace KC
set_option maxRecDepth 100000
''']
out.append('/-- The groups of src/addressformatrc with their entries, in the order of the file. -/')
out.append('def shippedGroups : List (QString × List (QString × QString)) :=\n  [' + ',\n   '.join(
    '(%s, [%s])' % (lit(c), ',\n     '.join('(%s, %s)' % (lit(k), lit(v)) for k, v in es)) for c, n, es in table) + ']')
out.append('''
/-- The entries of a group. -/
def shippedGroup (code : QString) : List (QString × QString) := ((shippedGroups.find? fun g => g.1 = code).map (·.2)).getD []

/-- `KConfigGroup::readEntry`: an entry `key[language]` for one of the user's languages (best first) comes before the plain one. -/
def shippedEntry (languages : List QString) (code key : QString) : Option QString :=
  ((languages.map fun l => key ++ q! "[" ++ l ++ q! "]") ++ [key]).findSome? fun k => ((shippedGroup code).find? fun e => e.1 = k).map (·.2)

end KC
''')
open('/verif/lean/Verif/Model/ShippedFormats.lean', 'w').write('\n'.join(out))
