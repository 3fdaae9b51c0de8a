#!/usr/bin/env python3
"""Writes lean/Verif/Examples/Ui.lean: the resolver tests of /repo/crates/diman_unit_system/tests/compile_fail, verbatim, with the
errors, notes and helps of their .stderr files as the expected result of the model."""
import glob,os,re
D='/repo/crates/diman_unit_system/tests/compile_fail/'
def lit(s): return 'str!"%s"' % s.replace('\\','\\\\').replace('"','\\"')
out=['import Verif.Model.Messages','import Verif.Model.Lexer','import Verif.Spec.Shape','/-!','# The repository\'s own compile-fail tests, run by the model',
'Generated by tools/ui.py from crates/diman_unit_system/tests/compile_fail: each example is the verbatim argument of the macro call and the',
'expected errors, notes and helps of the `.stderr` file. They check the model, not the properties.','-/','namespace Diman','',
'/-- The texts of the errors the model shows for a macro argument given by its lines (integer exponents; the texts do not depend on the',
'numbers, so they are forgotten). `none`: syntax error or panic. -/',
'def uiErrors (lines : List Str) : Option (List (Str × List (NoteLevel × Str))) :=',
'  match lex lines with',
'  | none => none',
'  | some ts => match macroMessages (E := Int) (M := Unit) (fun _ => ()) (fun _ => ()) ts with',
'    | .done l => some (l.map fun m => (m.text, m.notes))',
'    | _ => none','',
'/-- The macro argument is a syntax error. -/',
'def uiSyntaxError (lines : List Str) : Bool :=',
'  match lex lines with',
'  | none => false',
'  | some ts => match macroMessages (E := Int) (M := Unit) (fun _ => ()) (fun _ => ()) ts with',
'    | .syntaxError => true',
'    | _ => false','']
for f in sorted(glob.glob(D+'resolver_*.rs')+glob.glob(D+'dimension_*.rs')):
    src=open(f).read().split('\n')
    a=next(i for i,l in enumerate(src) if l.startswith('unit_system_internal!(')); b=next(i for i,l in enumerate(src) if i>a and l.startswith(');'))
    body=src[a+1:b]
    err=open(f[:-3]+'.stderr').read().split('\n')
    msgs=[]
    for l in err:
        m=re.match(r'error: (.*)$',l)
        if m: msgs.append((m[1],[]))
        m=re.match(r'\s+= (note|help): (.*)$',l)
        if m: msgs[-1][1].append((m[1],m[2]))
    n=os.path.basename(f)[:-3]
    lines='['+',\n     '.join(lit(l) for l in body)+']'
    out.append('/-- tests/compile_fail/%s.rs:%d-%d and .stderr -/'%(n,a+2,b))
    if 'numeric_factor' in n:
        out.append('example : uiSyntaxError\n    %s = true := by decide +kernel'%lines)
    else:
        e=',\n      '.join('(%s, [%s])'%(lit(t),', '.join('(.%s, %s)'%(k,lit(x)) for k,x in ns)) for t,ns in msgs)
        out.append('example : uiErrors\n    %s =\n    some [%s] := by decide +kernel'%(lines,e))
    out.append('')
# the shared system of the type tests is accepted
f=D+'example_system/mod.rs'; src=open(f).read().split('\n')
a=next(i for i,l in enumerate(src) if l.startswith('unit_system_internal!(')); b=next(i for i,l in enumerate(src) if i>a and l.startswith(');'))
out.append('/-- tests/compile_fail/example_system/mod.rs:%d-%d: accepted without an error. -/'%(a+2,b))
out.append('example : uiErrors\n    [%s] = some [] := by decide +kernel'%',\n     '.join(lit(l) for l in src[a+1:b]))
out+=['','end Diman']
open('/verif/lean/Verif/Examples/Ui.lean','w').write('\n'.join(out)+'\n')
