#!/usr/bin/env python3
"""Transliterates the C++ functions of particle/singularity/UandP{Normal,Tang}.hpp into Lean
definitions (Verif/Model/Sing{Normal,Tang}.lean): same statements, same order, same names."""
import re
ROOT='/repo/cafes/particle/singularity/'
def strip(l): return re.sub(r'//.*','',l)
def functions(fn):
    lines=open(ROOT+fn).read().split('\n'); i=0
    while i<len(lines):
        m=re.match(r'\s*PetscScalar\s+(\w+)\s*\(position(\d)d X, PetscReal H, PetscReal M, PetscReal (\w+), double U',lines[i])
        if m:
            j=i; depth=0; started=False; body=[]
            while True:
                l=strip(lines[j]); depth+=l.count('{')-l.count('}'); started|='{' in l; body.append(l)
                if started and depth==0: break
                j+=1
            b=' '.join(body); b=b[b.index('{')+1:b.rindex('}')].strip()
            yield m.group(1),m.group(2),m.group(3),b,i+1,j+1
            i=j
        i+=1
CALL=r'(\w+_(?:sing_)?(?:normalMvt|tangMvt|tang)\dD)\(X, H, +M, (\w), U, l, eps, param\)'
def expr(e):
    e=' '.join(e.split())
    e=re.sub(CALL,r'(\1 X H M \2 U l eps)',e)
    e=re.sub(r'(d?\d?chiTrunc)\((\w+|X\[1\]), ?l, ?eps\)',r'(\1 (\2) l eps)',e)
    # pow(e,2)
    while 'pow(' in e:
        k=e.index('pow('); d=0; p=k+4
        while True:
            c=e[p]
            if c=='(': d+=1
            if c==')':
                if d==0: break
                d-=1
            p+=1
        inner=e[k+4:p]; base,ex=inner.rsplit(',',1)
        e=e[:k]+'('+base.strip()+') ^ '+ex.strip()+e[p+1:]
    e=e.replace('sqrt(','Real.sqrt (')
    e=re.sub(r'X\[(\d)\]',r'X \1',e)
    e=re.sub(r'0\.(\d)e1\b',r'\1',e); e=re.sub(r'0\.(\d\d)e2\b',r'\1',e); e=re.sub(r'0\.(\d\d\d)e3\b',r'\1',e)
    e=re.sub(r'\b(\d+)\.(?!\d)',r'\1',e)
    e=re.sub(r'X (\d)\*',r'X \1 * ',e)
    assert not re.search(r'\d\.\d|\de\d',e), e
    return e
def gen(fn,out,mod):
    o=['import Verif.Model.Trunc','','/-!',f'Generated by tools/gen_sing.py from particle/singularity/{fn}: every `double t = e;` is a `let`,',
       'every `return` the result; `double` is `ℝ`, `pow(x, 2)` is `x ^ 2`. The unused argument `param` is dropped.','-/','',
       'set_option linter.unusedVariables false','set_option maxRecDepth 4000','namespace Cafes.Sing','']
    for n,dim,a,b,l0,l1 in functions(fn):
        o.append(f'/-- particle/singularity/{fn}:{l0}-{l1} -/')
        o.append(f'noncomputable def {n} (X : Fin {dim} → ℝ) (H M {a} U l eps : ℝ) : ℝ :=')
        b=re.sub(r'double (\w+);\s*if\((\w+)!=0\)\s*\1 = ([^;]*);\s*else\s*\1 = ([^;]*);',r'double \1 = @IF(\2 ≠ 0) @THEN(\3) @ELSE(\4);',b)
        m=re.match(r'(.*?)if\s*\((\w+)!=0\)\s*return (.*?);\s*else\s*return (.*?);\s*$',b,re.S)
        tail=None
        if m: b=m.group(1); tail=(m.group(2),m.group(3),m.group(4))
        for s in b.split(';'):
            s=' '.join(s.split())
            if not s: continue
            if s.startswith('return'):
                o.append('  '+expr(s[6:].strip())); continue
            m2=re.match(r'(?:double|PetscReal) (\w+) = (.*)$',s); assert m2,(n,s)
            if '@IF' in s:
                m3=re.match(r'(?:double) (\w+) = @IF\((.*?)\) @THEN\((.*)\) @ELSE\((.*)\)$',s)
                o.append(f'  let {m3.group(1)} : ℝ := if {m3.group(2)} then {expr(m3.group(3))} else {expr(m3.group(4))};')
            else: o.append(f'  let {m2.group(1)} : ℝ := {expr(m2.group(2))};')
        if tail: o.append(f'  if {tail[0]} ≠ 0 then {expr(tail[1])} else {expr(tail[2])}')
        o.append('')
    o.append('end Cafes.Sing')
    open('/verif/lean/Verif/Model/'+out,'w').write('\n'.join(o)+'\n')
gen('UandPNormal.hpp','SingNormal.lean','SingNormal'); gen('UandPTang.hpp','SingTang.lean','SingTang')
