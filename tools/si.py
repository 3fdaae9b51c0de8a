#!/usr/bin/env python3
"""Writes lean/Verif/Model/SiText.lean: the argument of unit_system!( ... ) in /repo/src/si.rs, verbatim, line by line."""
import sys
src = open('/repo/src/si.rs', encoding='utf8').read().split('\n')
a = src.index('unit_system!('); b = src.index(');')
body = src[a+1:b]
out = ['import Verif.Model.Str', '/-!', '# The text of src/si.rs',
 'Generated by tools/si.py: the argument of `unit_system!( ... )`, lines %d-%d of src/si.rs, one string per line.' % (a+2, b),
 '-/', 'namespace Diman', '']
CH = 20
names = []
for i in range(0, len(body), CH):
    n = 'siText%02d' % (i//CH); names.append(n)
    ls = body[i:i+CH]
    out.append('/-- src/si.rs:%d-%d -/' % (a+2+i, a+1+i+len(ls)))
    out.append('def %s : List (List Char) :=' % n)
    out.append('  [' + ',\n   '.join('str!"%s"' % l.replace('\\','\\\\').replace('"','\\"') for l in ls) + ']')
    out.append('')
out.append('/-- src/si.rs:%d-%d, the lines of the argument of `unit_system!`. -/' % (a+2, b))
out.append('def siLines : List (List Char) := ' + ' ++ '.join(names))
out.append('')
out.append('end Diman')
open('/verif/lean/Verif/Model/SiText.lean','w',encoding='utf8').write('\n'.join(out)+'\n')
