#!/usr/bin/env python3
"""Generates lean/Verif/Model/DatabaseMra.lean and DatabaseManufacturers.lean from
net/echonet/database_mra_objects.go and database_manufacturers.go of the repository.
Usage: gen_db.py /repo /verif/lean"""
import re, sys
repo, lean = sys.argv[1], sys.argv[2]
RULE = {'required': '.required', 'optional': '.optional', 'notApplicable': '.notApplicable',
        'required_c': '.requiredC', 'required_o': '.requiredO'}
objs = []
for i, l in enumerate(open(repo + '/net/echonet/database_mra_objects.go'), 1):
    if i < 38:
        continue
    m = re.search(r'newStandardObject\("(.*)", 0x([0-9A-F]{2}), 0x([0-9A-F]{2})\)', l)
    if m:
        objs.append([i, i, m.groups(), []])
        continue
    m = re.search(r'AddProperty\(newStandardProperty\(0x([0-9A-F]{2}), "(.*)", "(.*)", (-?\d+), "(.*)", "(.*)", "(.*)"\)\)', l)
    if m:
        objs[-1][3].append(m.groups())
        continue
    if 'db.addObject(obj)' in l:
        objs[-1][1] = i
        continue
    t = l.strip()
    assert t in ('', '}') or t.startswith('//'), (i, l)
out = ['import Verif.Model.Database', '',
       '/-! Generated by tools/gen_db.py from net/echonet/database_mra_objects.go: the calls of',
       '`initObjects` (lines 36-1249), in order. -/', '', 'namespace Verif.Model.Mra', '']
names = []
for a, b, (name, g, c), props in objs:
    n = 'obj%s%s' % (g, c)
    names.append(n)
    out.append('/-- database_mra_objects.go:%d-%d -/' % (a, b))
    out.append('def %s : RawObj where' % n)
    out.append('  clsName := "%s"' % name)
    out.append('  grpCode := 0x%s' % g)
    out.append('  clsCode := 0x%s' % c)
    out.append('  props := [')
    out.append(',\n'.join('    ⟨0x%s, "%s", %s, %s, %s⟩' % (p[0], p[1], RULE[p[4]], RULE[p[5]], RULE[p[6]])
                          for p in props) + ']')
    out.append('')
out.append('/-- All objects in the order of `initObjects` (database_mra_objects.go:36-1249). -/')
out.append('def table : List RawObj := [')
out.append(',\n'.join('  ' + ', '.join(names[i:i + 6]) for i in range(0, len(names), 6)) + ']')
out += ['', 'end Verif.Model.Mra', '']
open(lean + '/Verif/Model/DatabaseMra.lean', 'w').write('\n'.join(out))
mans = []
for i, l in enumerate(open(repo + '/net/echonet/database_manufacturers.go'), 1):
    m = re.search(r'newManufacture\(0x([0-9A-F]+), "(.*)"\)', l)
    if m:
        mans.append(m.groups())
    else:
        assert 'newManufacture' not in l, (i, l)
out = ['import Verif.Model.Database', '',
       '/-! Generated by tools/gen_db.py from net/echonet/database_manufacturers.go: the calls of',
       '`initManufactures`, in order. -/', '', 'namespace Verif.Model.Mra', '',
       '/-- database_manufacturers.go:8- -/',
       'def manufacturers : List Manufacture := [',
       ',\n'.join('  ⟨0x%s, "%s"⟩' % m for m in mans) + ']', '', 'end Verif.Model.Mra', '']
open(lean + '/Verif/Model/DatabaseManufacturers.lean', 'w').write('\n'.join(out))
