#!/usr/bin/env python3
"""Extracts the CpuDetails trait constants and the two provided instances from /repo
and writes lean/Verif/Model/CpuDetails.lean."""
import re
R='/repo/m68000/src/'
tr=open(R+'cpu_details.rs').read().split('\n')
consts=[]
for i,l in enumerate(tr,1):
    m=re.match(r'\s*const (\w+): usize;',l)
    if m: consts.append((m.group(1),i))
def inst(f):
    src=open(R+f).read().split('\n'); d={}
    for i,l in enumerate(src,1):
        m=re.match(r'\s*const (\w+): usize = (.*?);',l)
        if m:
            d[m.group(1)]=(eval(m.group(2),{}, {k:v[0] for k,v in d.items()}),i)
    vec=[];ins=False;start=None
    fmt=None
    for i,l in enumerate(src,1):
        m=re.search(r'STACK_FORMAT: StackFormat = StackFormat::(\w+);',l)
        if m: fmt=m.group(1)
        if 'fn vector_execution_time' in l: start=i
        m=re.match(r'\s*(\d+)(?:\.\.=(\d+))? => (\d+),',l)
        if m and start: vec.append((int(m.group(1)),int(m.group(2) or m.group(1)),int(m.group(3))))
        if start and '_ =>' in l:
            assert 'Self::VECTOR_RESET' in l; end=i+2; break
    return d,vec,fmt,start,end
out=[]
out.append('''/-
GENERATED by tools/gen_cpu_details.py from m68000/src/cpu_details.rs,
m68000/src/cpu_details/mc68000.rs and m68000/src/cpu_details/scc68070.rs.
-/
import Verif.Model.Basic

namespace M68k

/-- cpu_details.rs L16-19. -/
inductive StackFormat
  | MC68000
  | SCC68070
deriving DecidableEq, Repr

/-- cpu_details.rs: trait `CpuDetails` as a record; an instance of the trait is a value of it.
`usize` execution times are `Nat`. -/
structure CpuDetails where
  STACK_FORMAT : StackFormat
  vectorExecutionTime : U8 → Nat''')
for c,i in consts: out.append(f'  {c} : Nat -- L{i}')
for name,f in (('mc68000','cpu_details/mc68000.rs'),('scc68070','cpu_details/scc68070.rs')):
    d,vec,fmt,a,b=inst(f)
    assert set(d)==set(c for c,_ in consts), set(d)^set(c for c,_ in consts)
    out.append('')
    out.append(f'/-- {f} L{a}-{b}: `vector_execution_time`. -/')
    out.append(f'def {name}VectorExecutionTime (vector : U8) : Nat :=')
    out.append(f'  let v := vector.toNat')
    for lo,hi,t in vec:
        cond=f'v = {lo}' if lo==hi else f'{lo} ≤ v ∧ v ≤ {hi}'
        out.append(f'  if {cond} then {t} else')
    out.append(f'  {d["VECTOR_RESET"][0]}')
    out.append('')
    ls=[x[1] for x in d.values()]
    out.append(f'/-- {f} L{min(ls)-1}-{max(ls)}. -/')
    out.append(f'def {name} : CpuDetails where')
    out.append(f'  STACK_FORMAT := .{fmt}')
    out.append(f'  vectorExecutionTime := {name}VectorExecutionTime')
    for c,_ in consts: out.append(f'  {c} := {d[c][0]} -- L{d[c][1]}')
out.append('')
out.append('end M68k')
open('/verif/lean/Verif/Model/CpuDetails.lean','w').write('\n'.join(out)+'\n')
