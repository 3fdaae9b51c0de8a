#!/usr/bin/env python3
"""Writes lean/Verif/Examples/RepoTests.lean: the tests of /repo/tests, translated statement by statement into the test language of
Verif/Examples/TestLang.lean, over the verbatim unit systems of those tests."""
import re
D='/repo/tests/'
def lit(s): return '(str!"%s")' % s.replace('\\','\\\\').replace('"','\\"')
def system(f):
    src=open(D+f).read().split('\n')
    a=next(i for i,l in enumerate(src) if re.match(r'(diman::)?unit_system!\(',l)); b=next(i for i,l in enumerate(src) if i>a and l.startswith(');'))
    return a+2,b,src[a+1:b]
TOK=re.compile(r'\s*("(?:[^"\\]|\\.)*"|\d+\.\d*(?:e-?\d+)?|\d+(?:e-?\d+)?|[A-Za-z_$][A-Za-z_0-9$]*|::<|::|>=|==|\+=|-=|\*=|/=|&mut\b|[-+*/&()\[\],.;:<>=!])')
def tokens(s):
    s=re.sub(r'//[^\n]*','',s); i=0; r=[]
    while s[i:].strip():
        m=TOK.match(s,i); assert m, s[i:i+40]; r.append(m[1]); i=m.end()
    return r
def braces(s,i):
    n=0
    while True:
        if s[i]=='{': n+=1
        if s[i]=='}':
            n-=1
            if n==0: return i
        i+=1
def functions(s):
    """(should_panic, name, body) of the tests in a piece of source"""
    for m in re.finditer(r'((?:#\[[^\]]*\]\s*)*)fn (\w+)\(\) \{',s):
        if '#[test]' in m[1]:
            yield 'should_panic' in m[1], m[2], s[m.end():braces(s,m.end()-1)]
BIN={'+':'add','-':'sub','*':'mul','/':'div','==':'partialEq'}
class P:
    def __init__(self,toks,ctors,units,ft,vec):
        self.t=toks; self.i=0; self.ctors=ctors; self.units=units; self.ft=ft; self.vec=vec; self.vars={}; self.arrays={}; self.text={}
    def peek(self,k=0): return self.t[self.i+k] if self.i+k<len(self.t) else None
    def next(self): self.i+=1; return self.t[self.i-1]
    def eat(self,*xs):
        for x in xs:
            y=self.next(); assert x==y,(x,y,self.t[self.i-5:self.i+5])
    def args(self,close=')'):
        r=[]
        while self.peek()!=close:
            r.append(self.expr())
            if self.peek()==',': self.next()
        self.next(); return r
    def expr(self):
        a=self.additive()
        while self.peek() in ('==','>','>=','<'):
            o=self.next(); b=self.additive()
            a='(.bin .partialEq %s %s)'%(a,b) if o=='==' else '(.%s %s %s)'%({'>':'gt','>=':'ge','<':'lt'}[o],a,b)
        return a
    def additive(self):
        a=self.mult()
        while self.peek() in '+-' if self.peek() else False:
            o=self.next(); a='(.bin .%s %s %s)'%(BIN[o],a,self.mult())
        return a
    def mult(self):
        a=self.unary()
        while self.peek() in ('*','/'):
            o=self.next(); a='(.bin .%s %s %s)'%(BIN[o],a,self.unary())
        return a
    def unary(self):
        x=self.peek()
        if x=='&': self.next(); return '(.ref %s)'%self.unary()
        if x=='&mut': self.next(); return '(.mutRef %s)'%self.unary()
        if x=='*': self.next(); return '(.deref %s)'%self.unary()
        if x=='-':
            self.next()
            if self.peek()[0].isdigit(): return '(.lit %s)'%lit('-'+self.next())
            return '(.call1 .neg %s)'%self.unary()
        return self.postfix()
    def postfix(self):
        x=self.next()
        if x=='(':
            a=self.expr()
            if self.peek()=='as': self.next(); assert self.next()=='$float_name'
            self.eat(')')
        elif x[0].isdigit():
            a='(.lit %s)'%lit(x)
            if self.peek() in ('f32','f64'): self.next()
        elif x=='units' : self.eat('::'); a='(.unit %s)'%lit(self.next())
        elif self.peek()=='::' and self.peek(1)=='new':
            self.eat('::','new','('); l=self.args(); assert all(e.startswith('(.lit ') for e in l)
            a='(.vec .%s [%s])'%(self.vec,', '.join(e[6:-1] for e in l))
        elif self.peek()=='(':
            self.next(); l=self.args(); assert x in self.ctors,x; a='(.bin .mul %s (.unit %s))'%(l[0],lit(x))
        elif x in self.arrays and self.t[self.i:self.i+8]==['.','into_iter','(',')','.','sum','(',')']:
            self.i+=8; a='(.sum%d %s)'%(len(self.arrays[x]),' '.join(self.arrays[x]))
        elif x in self.vars: a='(.var %s)'%lit(x)
        else: assert x in self.units,(x,self.t[self.i-5:self.i+5]); a='(.unit %s)'%lit(x)
        while self.peek()=='.':
            self.next(); m=self.next(); k=None
            if self.peek()=='::<': self.next(); k=self.next(); self.eat('>')
            self.eat('('); l=self.args()
            if m=='new': a='(.call2 .unitNew %s %s)'%(a,l[0])
            elif m=='round': a='(.float (roundFloat .%s) (.call1 .deref %s))'%(self.ft,a)
            elif m=='sqrt' and a.startswith('(.call1 .valueUnchecked'): a='(.float (platform.sqrt .%s) %s)'%(self.ft,a)
            else:
                f={'powi':'(.powi %s)'%k,'squared':'.squared','cubed':'.cubed','value':'.value','abs':'.abs','sqrt':'.sqrt','cbrt':'.cbrt','log2':'(.dimensionless .log2)','clamp':'.clamp','max':'.max','min':'.min',
                   'value_unchecked':'.valueUnchecked','value_in':'.valueIn','x':'(.axis .x)','y':'(.axis .y)','z':'(.axis .z)'}[m]
                a='(.call%d %s %s)'%(len(l)+1,f,' '.join([a]+l))
        return a
    def storage(self,x): return self.ft if x=='$float_name' else x if x in ('f32','f64') else self.vec
    def stmts(self,panics):
        r=[]
        while self.i<len(self.t):
            x=self.next()
            if x=='let':
                if self.peek()=='mut': self.next()
                v=self.next(); ty=None
                if self.peek()==':':
                    self.next(); d=self.next()
                    if d=='String': ty='String'
                    elif d=='f64': ty=None
                    else: self.eat('<'); ty=(d,self.storage(self.next())); self.eat('>')
                self.eat('=')
                if self.t[self.i:self.i+3]==['serde_yaml','::','from_str']:
                    self.i+=3; self.eat('('); s=self.next(); self.eat(')','.','unwrap','(',')')
                    if panics: r.append('.readFails %s .%s (str!%s)'%(lit(ty[0]),ty[1],s)); return r   # the rest is not reached
                    r.append('.read %s %s .%s (str!%s)'%(lit(v),lit(ty[0]),ty[1],s))
                elif ty=='String':
                    self.eat('serde_yaml','::','to_string','(','&'); e=self.expr(); self.eat(')','.','unwrap','(',')'); self.text[v]=e
                elif self.peek()=='[': self.next(); self.arrays[v]=self.args(']')
                else:
                    e=self.expr()
                    r.append('.bind %s %s'%(lit(v),e) if ty is None else '.bindAs %s %s .%s %s'%(lit(v),lit(ty[0]),ty[1],e))
                self.vars[v]=1
            elif x=='assert' : self.eat('!','('); r.append('.assert %s'%self.args()[0])
            elif x=='assert_eq':
                self.eat('!','(')
                if self.peek()=='format' and self.peek(3)!='"{:?}"':
                    self.eat('format','!','('); u=self.next()[3:-1]; self.eat(','); e=self.args()[0]; self.eat(','); s=self.next()[1:-1]
                    assert s.endswith(u); r.append('.printed %s %s'%(e,lit(s[:len(s)-len(u)])))
                    self.eat(')')
                elif self.peek()=='format':
                    self.eat('format','!','(','"{:?}"',','); e=self.args()[0]; self.eat(','); s=self.next(); r.append('.debug %s (str!%s)'%(e,s))
                    if self.peek()==',': self.next()
                    self.eat(')')
                elif self.peek()=='serde_yaml':
                    self.eat('serde_yaml','::','to_string','(','&'); e=self.args()[0]; self.eat('.','unwrap','(',')','.','trim','(',')',','); s=self.next()
                    r.append('.serialize %s (str!%s)'%(e,s))
                    if self.peek()==',': self.next()
                    self.eat(')')
                elif self.peek() in self.text:
                    e=self.text[self.next()]; self.eat(','); s=self.next(); assert s.endswith('\\n"'); self.eat(')')
                    r.append('.serialize %s (str!%s")'%(e,s[:-3]))
                else:
                    a,b=self.args(); r.append('.assert (.bin .partialEq %s %s)'%(a,b))
            elif x.lstrip('$').startswith('assert_is_close'):
                self.eat('('); a,b=self.args(); r.append('.close %s %s'%(a,b))
            else:
                o=self.next(); assert o in ('+=','-=','*=','/='),(x,o); r.append('.assign .%sAssign %s %s'%(BIN[o[0]],lit(x),self.expr()))
            self.eat(';')
        return r
def ctors(s): return set(re.findall(r'make_annotated_unit_constructor!\(\s*(\w+),',s))
def translate(s,name,units,ft,vec=None):
    c=ctors(s)
    for panics,f,body in functions(s):
        p=P(tokens(body),c,units,ft,vec)
        yield '(%s, .%s,\n     [%s])'%(lit(name+'::'+f),ft,',\n      '.join(p.stmts(panics)))
def macros(s): return {m[1]:s[m.end():braces(s,m.end()-1)] for m in re.finditer(r'macro_rules! (\w+) \{',s)}
out=['import Verif.Examples.TestLang','/-!','# The repository\'s own tests, run by the model',
'Generated by tools/tests.py from /repo/tests. Each test is translated statement by statement, over the verbatim text of its unit system; the',
'expected result is that no test fails. They check the model, not the properties. Not here: the tests of mpi and rand; those',
'of the SI system are in SiTests.','-/','namespace Diman.TestLang','']
count=0
def emit(nm,doc,lines,tests,rational=False):
    global count
    count+=len(tests)
    for k in range(0,len(tests),40):
        out.append('/-- %s -/'%doc)
        out.append('example : %s %s\n   [%s] = some [] := by decide +kernel\n'%('failingRational' if rational else 'failing',lines,',\n    '.join(tests[k:k+40])))
def defsys(n,f):
    a,b,l=system(f)
    out.append('/-- tests/%s:%d-%d -/\ndef %s : List Str :=\n    [%s]\n'%(f,a,b,n,',\n     '.join(lit(x) for x in l)))
    return set(re.findall(r'\b(?:unit|constant) (\w+)','\n'.join(l)))|{'kilometers'}
ex=defsys('exampleSystem','example_system/mod.rs'); al=defsys('aliasSystem','unit_aliases/mod.rs'); ra=defsys('rationalSystem','rational_dimensions/mod.rs')
R=lambda f: open(D+f).read()
emit('debug','tests/debug/mod.rs','exampleSystem',list(translate(R('debug/mod.rs'),'debug',ex,'f64')))
emit('dims','tests/dimension_defs/mod.rs','exampleSystem',list(translate(R('dimension_defs/mod.rs'),'dimension_defs',ex,'f64')))
for ft in ('f32','f64'):
    emit('float','tests/float/mod.rs for '+ft,'exampleSystem',list(translate(macros(R('float/mod.rs'))['gen_tests_for_float'],ft,ex,ft)))
for ft in ('f32','f64'):
    emit('serde','tests/serde/mod.rs for '+ft,'exampleSystem',list(translate(macros(R('serde/mod.rs'))['gen_tests_for_float'],ft,ex,ft)))
for f in ('serde','glam'):
    for n,vs in (('2',(('f32','vec2'),('f64','dvec2'))),('3',(('f32','vec3'),('f64','dvec3')))):
        for ft,v in vs:
            emit(f,'tests/%s/mod.rs for %s'%(f,v),'exampleSystem',list(translate(macros(R(f+'/mod.rs'))['gen_tests_for_vector_'+n],v,ex,ft,v)))
for ft in ('f32','f64'):
    emit('aliases','tests/unit_aliases/mod.rs for '+ft,'aliasSystem',list(translate(macros(R('unit_aliases/mod.rs'))['gen_tests_for_float'],ft,al,ft)))
for ft in ('f32','f64'):
    emit('rational','tests/rational_dimensions/mod.rs for '+ft,'rationalSystem',list(translate(macros(R('rational_dimensions/mod.rs'))['gen_tests_for_float'],ft,ra,ft)),True)
out.append('end Diman.TestLang')
rep=len(out)
# the SI system: examples of the crate documentation, and tests/gas
lib=open('/repo/src/lib.rs').read().split('\n')
def doc(a,b,drop=()):
    """code of src/lib.rs:a-b without hidden lines, `use` and comments"""
    r=[]
    for l in lib[a-1:b]:
        l=re.sub(r'^//! ?','',l)
        if l.startswith('#') or l.startswith('use ') or l.startswith('```') or any(d in l for d in drop): continue
        r.append(l)
    return '\n'.join(r)
units=set(re.findall(r'\w+',open('/repo/src/si.rs').read()))|{'kilometers'}
DOCS=[('v1 and v2',"let v1: Velocity<f64> = (36.0 * kilometers) / (1.0 * hours);\nlet v2: Velocity<f64> = (10.0 * meters) / (1.0 * seconds);\n"+doc(15,16))]
def find(text):
    return next(i for i,l in enumerate(lib) if text in l)+1
def block(text):
    a=find(text); i=a
    while '```' not in lib[i-1]: i-=1
    j=a
    while '```' not in lib[j-1]: j+=1
    return i+1,j-1
for t in ['let l = 5.0 * meters + 10.0 * kilometers','let v: Velocity<f64> = l / t','let area = length.squared()','let l2 = meters.new(2.0)','let v1 = (kilometers / hour).new(3.6)',
          'assert_eq!(format!("{} m", length.value_in(meters)), "2000 m")','let vel = 10.0f64 * meters_per_second','let value: f64 = length.value_unchecked()','"5000 m s^-1"']:
    a,b=block(t); DOCS.append(('lib.rs:%d-%d'%(a,b),doc(a,b,('cfg(any(feature',))))
GAS="""
let pressure: Pressure<f64> = pascals.new(100e3);
let velocity: Velocity<f64> = meters_per_second.new(100.0);
let temperature: Temperature<f64> = kelvin.new(293.15);
let cp: SpecificHeatCapacity<f64> = joules_per_kilogram_kelvin.new(1004.);
let cv: SpecificHeatCapacity<f64> = joules_per_kilogram_kelvin.new(717.);
let r: SpecificHeatCapacity<f64> = cp - cv;
let gamma: Dimensionless<f64> = cp / cv;
let density: MassDensity<f64> = pressure / (r * temperature);
let energy_internal: SpecificEnergy<f64> = cv * temperature;
let items = [velocity.powi::<2>(), velocity.powi::<2>(), velocity.powi::<2>()];
let energy_kinetic: SpecificEnergy<f64> = 0.5 * items.into_iter().sum();
let momentum: MomentumDensity<f64> = density * velocity;
let energy: EnergyDensity<f64> = density * (energy_internal + energy_kinetic);
let velocity2: Velocity<f64> = momentum / density;
let items2 = [velocity2.powi::<2>(), velocity2.powi::<2>(), velocity2.powi::<2>()];
let energy_kinetic2: SpecificEnergy<f64> = 0.5 * items2.into_iter().sum();
let e_internal: SpecificEnergy<f64> = energy / density - energy_kinetic2;
let pressure2: Pressure<f64> = (gamma - 1.0) * density * e_internal;
let temperature2: Temperature<f64> = e_internal / cv;
assert!(((pressure - pressure2) / pressure).abs() < 1e-14);
assert!(((temperature - temperature2) / temperature).abs() < 1e-14);
"""
DOCS.append(('tests/gas/mod.rs',GAS))
def siNeeded():
    import re
    text=open('/repo/src/si.rs').read(); text=text[text.index('(')+1:text.rindex(')')]
    text=re.sub(r'//[^\n]*','',text)
    stmts=[x.strip() for x in text.split(';') if x.strip()]
    ids=lambda x: set(re.findall(r'[A-Za-z_][A-Za-z_0-9]*',x))
    decl={}
    for i,x in enumerate(stmts):
        b=re.sub(r'#\[[^\]]*\]','',x)
        m=re.match(r'\s*(dimension|unit|constant)\s+([A-Za-z_0-9]+)',b)
        if m: decl[m.group(2)]=i
        for l in re.findall(r'#\[alias\(([^)]*)\)\]',x):
            for a in ids(l): decl[a]=i
    pre=re.compile('^(kilo)(.*)$')
    need=set(); todo=set()
    for _,b in DOCS: todo|=ids(b)
    keep=set(i for i,x in enumerate(stmts) if re.match('(quantity_type|dimension_type)',x) or '#[base' in x or re.match(r'dimension \w+$',x))
    for i in keep: todo|=ids(stmts[i])
    while todo:
        t=todo.pop()
        if t in need: continue
        need.add(t)
        m=pre.match(t)
        if t not in decl and m: t=m.group(2)
        if t in decl:
            keep.add(decl[t]); todo|=ids(stmts[decl[t]])
    ls=[]
    for i in sorted(keep):
        if 'unit meter:' not in stmts[i]: stmts[i]=re.sub(r'#\[metric_prefixes\]\s*','',stmts[i])
        ls+=[re.sub(r'\s+',' ',l).strip() for l in (stmts[i]+';').split('\n')]
    return '['+',\n   '.join(lit(l) for l in ls)+']'
so=['import Verif.Examples.TestLang','/-!','# Tests over the SI system, run by the model',
'Generated by tools/tests.py: examples of the crate documentation (src/lib.rs, with functions inlined) and tests/gas/mod.rs (structs and',
'iterators over the three equal components written out), with the statements of src/si.rs that they need, in their order',
'(the metric prefixes are left on meter only, to keep the computation small). A check of the model, not of the properties.','-/',
'namespace Diman.TestLang','','set_option maxRecDepth 4000 in','/-- src/lib.rs and tests/gas/mod.rs -/','example : failing\n  '+siNeeded()]
ts=[]
for n,body in DOCS:
    if not body.rstrip().endswith(';'): body=body.rstrip()+';'
    q=P(tokens(body),set(),units,'f64',None); ts.append('(%s, .f64,\n     [%s])'%(lit(n),',\n      '.join(q.stmts(False))))
so.append('   [%s] = some [] := by decide +kernel'%',\n    '.join(ts))
so+=['','end Diman.TestLang']
open('/verif/lean/Verif/Examples/SiTests.lean','w').write('\n'.join(so)+'\n')
count+=len(DOCS)
open('/verif/lean/Verif/Examples/RepoTests.lean','w').write('\n'.join(out)+'\n')
print(count,'tests')
