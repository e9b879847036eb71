#!/usr/bin/env python3
"""Translate the test documents of the repository to Lean terms (lean/Verif/Check/Docs.lean).

The documents are read with xml.etree.ElementTree, as the code does; comments are dropped, tail text is ignored."""
import re, sys, os
import xml.etree.ElementTree as ET
T = '/repo/sunspec/core/test/'

def lit(s):
    out = ''
    for c in s:
        if c == '\n': out += '\\n'
        elif c == '\t': out += '\\t'
        elif c == '\r': out += '\\r'
        elif c in '"\\': out += '\\' + c
        else:
            assert ord(c) < 127, c
            out += c
    return '"' + out + '"'

def term(e, ind):
    at = ', '.join('(%s, t!%s)' % (lit(k), lit(v)) for k, v in e.attrib.items())
    # text of elements with children is only indentation in these documents; the code does not read it
    tx = 'none' if e.text is None else '(some (t!%s))' % lit(e.text if len(e) == 0 or e.text.strip() else '\n')
    if len(e) == 0:
        return ' ' * ind + '.mk %s [%s] %s []' % (lit(e.tag), at, tx)
    ch = ',\n'.join(term(c, ind + 2) for c in e)
    return ' ' * ind + '.mk %s [%s] %s [\n%s]' % (lit(e.tag), at, tx, ch)

docs = []
def doc(name, src, root):
    docs.append('/-- %s -/\ndef %s : Elem :=\n%s\n' % (src, name, term(root, 2)))

def f(name, path):
    doc(name, 'sunspec/core/test/' + path, ET.parse(T + path).getroot())

for k in ['', '_a', '_b', '_c', '_d', '_processed']:
    f('docMap1' + k, 'devices/mbmap_test_device_1%s.xml' % k)
f('docMap2', 'devices/mbmap_test_device_2.xml')
f('docMap3', 'devices/mbmap_test_device_3.xml')
f('docPics1', 'devices/pics_test_device_1.xml')
f('docPics2', 'devices/pics_test_device_2.xml')
f('docSmdx65000', 'models/smdx_65000.xml')
src = open(T + 'test_device.py').read()
for k, name in [('1', 'docSmdx63001'), ('2', 'docPoints')]:
    m = re.search(r'test_device_pointtype_smdx_%s = """(.*?)"""' % k, src, re.S)
    doc(name, 'sunspec/core/test/test_device.py: test_device_pointtype_smdx_' + k, ET.fromstring(m.group(1).strip()))

out = '''import Verif.Py.Xml

/-!
# The documents of the tests of the repository

Generated by `tools/gen_docs.py` from `sunspec/core/test/devices`, `sunspec/core/test/models` and
`sunspec/core/test/test_device.py`.
-/

namespace Verif
namespace Check

''' + '\n'.join(docs) + '''
end Check
end Verif
'''
open('/verif/lean/Verif/Check/Docs.lean', 'w').write(out)
