#!/usr/bin/env python3
"""Writes lean/Verif/Conformance/Roundtrip.lean: the data of autotests/testroundtrip.cpp as kernel-checked examples about the model."""
import os, re
D = '/repo/autotests/data'
qrc = re.sub(r'<!--.*?-->', '', open('/repo/autotests/testroundtrip.qrc').read(), flags=re.S)
def section(name):
    m = re.search(r'prefix="/%s">(.*?)</qresource>' % re.escape(name), qrc, re.S)
    return re.findall(r'<file>data/(.*?)</file>', m.group(1))
inputs, o21, o30 = section('input'), section('output2.1'), section('output3.0')
def lit(b):
    # one literal per line of the file, joined
    parts = re.findall(rb'[^\n]*\n|[^\n]+', b)
    out = []
    for p in parts:
        s = ''
        for c in p:
            ch = chr(c)
            if ch == '\n': s += '\\n'
            elif ch == '\r': s += '\\r'
            elif ch == '\t': s += '\\t'
            elif ch in '"\\': s += '\\' + ch
            elif 32 <= c < 127: s += ch
            else: s += '\\x%02x' % c
        out.append('b! "%s"' % s)
    return '[' + ',\n   '.join(out) + '].flatten'
skip = {'vcard5.vcf'}  # 22 kB, mostly an embedded picture
res = ['''import Verif.Conformance.Env
/-
  Generated by tools/gen_conformance.py from autotests/testroundtrip.qrc and autotests/data: what the project's own round trip test
  expects is what the model computes. Left out: vcard5.vcf (an embedded picture of 20 kB); version 4.0, which that test does not run.
  The last examples are the checks of autotests/importexportvcardtest.cpp.
-/
namespace KC.Conformance
set_option maxRecDepth 100000
''']
for f in inputs:
    if f in skip: continue
    n = re.sub(r'\W', '_', f[:-4])
    res.append(f'/-- autotests/data/{f} -/\ndef {n} : QByteArray :=\n  {lit(open(os.path.join(D, f), "rb").read())}\n')
    for v, suffix, have in (('v2_1', '.2_1ref', o21), ('v3_0', '.ref', o30)):
        if f + suffix in have:
            res.append(f'/-- autotests/data/{f + suffix} -/\nexample : again .{v} {n} =\n  {lit(open(os.path.join(D, f + suffix), "rb").read())} := by decide +kernel\n')
src = open('/repo/autotests/importexportvcardtest.cpp', encoding='utf8').read()
for m in re.finditer(r'void \w+::(shouldExport\w+)\(\)\n\{\n(.*?)\n\}\n', src, re.S):
    texts = []
    for name in ('vcarddata', 'vcardexpected'):
        e = re.search(name + r'\s*\(?=?\s*((?:"(?:[^"\\]|\\.)*"\s*)+)', m.group(2))
        t = ''.join(re.findall(r'"((?:[^"\\]|\\.)*)"', e.group(1)))
        texts.append(t.replace('\\\\', '\0').replace('\\r', '\r').replace('\\n', '\n').replace('\\"', '"').replace('\0', '\\').encode('utf8'))
    res.append(f'/-- autotests/importexportvcardtest.cpp, {m.group(1)} -/\nexample : again .v4_0\n  ({lit(texts[0])}) =\n  {lit(texts[1])} := by decide +kernel\n')
res.append('end KC.Conformance\n')
open('/verif/lean/Verif/Conformance/Roundtrip.lean', 'w').write('\n'.join(res))
