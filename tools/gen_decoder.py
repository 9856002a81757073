#!/usr/bin/env python3
"""Extracts the Isa enum and the 65536-entry DECODER table from /repo and writes
lean/Verif/Model/Isa.lean and lean/Verif/Model/DecoderTable.lean (run-length encoded)."""
import re
R='/repo/m68000/src/'
isa=open(R+'isa.rs').read()
m=re.search(r'pub enum Isa \{(.*?)\n\}',isa,re.S)
names=[]
for l in m.group(1).split('\n'):
    l=re.sub(r'//.*','',l).strip().rstrip(',')
    if l and not l.startswith('#'): names.append(re.sub(r'\s*=.*','',l))
names=[n for n in names if n!='_Size']
start=isa[:m.start()].count('\n')+1; end=isa[:m.end()].count('\n')+1
o=['/-','GENERATED by tools/gen_decoder.py from m68000/src/isa.rs.','-/','import Verif.Model.Basic','','namespace M68k','',
 f'/-- isa.rs L{start}-{end}: `Isa` (the `_Size` sentinel, which no table entry uses, is left out). -/','inductive Isa']
o+=[f'  | {n}' for n in names]
o+=['deriving DecidableEq, Repr','','/-- isa.rs L108-111: `is_privileged`. -/','def Isa.isPrivileged : Isa → Bool',
'  | .Andisr | .Eorisr | .Movesr | .Moveusp | .Orisr | .Reset | .Rte | .Stop => true','  | _ => false','','end M68k','']
open('/verif/lean/Verif/Model/Isa.lean','w').write('\n'.join(o))
d=open(R+'decoder.rs').read()
i=d.index('= ['); body=d[i+3:d.rindex(']')]
ent=[e.strip() for e in re.sub(r'//.*','',body).split(',') if e.strip()]
ent=[e.split('::')[-1] for e in ent]
assert len(ent)==65536
assert set(ent)<=set(names)
runs=[]
for e in ent:
    if runs and runs[-1][0]==e: runs[-1][1]+=1
    else: runs.append([e,1])
print(len(runs))
# group in 16 lines of 4096 opcodes so that lookups stay short
lines=[]
for k in range(16):
    rs=[]
    for e in ent[k*4096:(k+1)*4096]:
        if rs and rs[-1][0]==e: rs[-1][1]+=1
        else: rs.append([e,1])
    lines.append(rs)
o=['/-','GENERATED by tools/gen_decoder.py from m68000/src/decoder.rs L19-4115 (65536 table entries),',
'run-length encoded, one list per value of the top four bits of the opcode.','-/','import Verif.Model.Isa','','namespace M68k','']
for k,rs in enumerate(lines):
    o.append(f'/-- decoder.rs: entries 0x{k:X}000 to 0x{k:X}FFF of `DECODER` as (value, repetitions). -/')
    o.append(f'def decoderLine{k:X} : List (Isa × Nat) := [')
    cur='  '
    for j,(e,n) in enumerate(rs):
        t=f'(.{e}, {n})'+(', ' if j+1<len(rs) else ']')
        if len(cur)+len(t)>98: o.append(cur.rstrip()); cur='  '
        cur+=t
    o.append(cur.rstrip()); o.append('')
o+=['/-- Entry number `k` of a run-length encoded list. -/',
'def lookupRuns : List (Isa × Nat) → Nat → Isa',
'  | [], _ => .Unknown',
'  | (i, n) :: t, k => if Nat.blt k n then i else lookupRuns t (k - n)','',
'/-- The table line for the top four bits of the opcode. -/',
'def decoderLine (k : Nat) : List (Isa × Nat) :=','  match k with']
o+=[f'  | {k} => decoderLine{k:X}' for k in range(15)]+['  | _ => decoderLineF','',
'/-- decoder.rs L18-4115: `DECODER[opcode as usize]`; also isa.rs L114-119 (`From<u16> for Isa`). -/',
'def decoder (opcode : U16) : Isa :=',
'  lookupRuns (decoderLine (opcode.toNat / 4096)) (opcode.toNat % 4096)','','end M68k','']
open('/verif/lean/Verif/Model/DecoderTable.lean','w').write('\n'.join(o))
