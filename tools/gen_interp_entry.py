#!/usr/bin/env python3
"""Generates Verif/Model/Fast.lean and Verif/Model/Disasm.lean from the `fast_*` and `instruction_*`
methods and the EXECUTE tables of interpreter_fast.rs and interpreter_disassembler.rs."""
import re, sys
SRC = '/repo/m68000/src/'
OUT = sys.argv[1] if len(sys.argv) > 1 else '/verif/lean/Verif/Model/'

def camel(s):
    p = s.split('_')
    return p[0] + ''.join(x.capitalize() for x in p[1:])

def cap(s):
    return ''.join(x.capitalize() for x in s.split('_'))

NOC = {'unknown_instruction', 'illegal', 'trap'}

def functions(path, prefix):
    ls = open(path).read().split('\n')
    res = []
    i = 0
    while i < len(ls):
        m = re.match(r'    fn ' + prefix + r'_(\w+)<M', ls[i])
        if m:
            j = i
            while ls[j] != '    }':
                j += 1
            res.append((m.group(1), i + 1, j + 1, [l.strip() for l in ls[i + 1:j] if l.strip()]))
            i = j
        i += 1
    return res

def table(path):
    ls = open(path).read().split('\n')
    a = next(i for i, l in enumerate(ls) if 'const EXECUTE' in l)
    b = next(i for i in range(a, len(ls)) if ls[i].strip() == '];')
    names = [re.match(r'M68000::(?:fast|instruction)_(\w+),', l.strip()).group(1) for l in ls[a + 1:b]]
    return a + 1, b + 1, names

isa = [l.strip().rstrip(',') for l in open(SRC + 'isa.rs').read().split('pub enum Isa {')[1].split('_Size')[0].split('\n')]
isa = [l.split('=')[0].strip().rstrip(',') for l in isa if l and not l.startswith('//') and not l.startswith('#')]

def execute_call(line):
    m = re.match(r'self\.execute_(\w+)\((.*)\)$', line)
    name, args = m.group(1), m.group(2)
    args = args.replace('inst.pc.wrapping_add(2)', '(inst.pc + 2)')
    args = [a.strip() for a in args.split(',') if a.strip() and a.strip() != 'memory']
    c = [] if name in NOC else ['C']
    return ' '.join(['execute' + cap(name)] + c + args)

def fast():
    o = ['import Verif.Model.Interp', 'import Verif.Model.Exception', '/-',
         'Generated by tools/gen_interp_entry.py from m68000/src/interpreter_fast.rs (L128-771): the `fast_*`',
         'methods and the EXECUTE table.', '-/', 'namespace M68k', 'namespace Exec',
         'variable {M : Type} [MemoryAccess M]', '']
    for name, a, b, body in functions(SRC + 'interpreter_fast.rs', 'fast'):
        sig = '(_ : CpuDetails)' if name in NOC else '(C : CpuDetails)'
        o.append(f'/-- interpreter_fast.rs L{a}-{b}: `fast_{name}`. -/')
        o.append(f'def fast{cap(name)} {sig} : Exec M Nat := do')
        for l in body:
            if l == 'let pc = self.regs.pc.0;':
                o.append('  let pc ← getPc')
            elif l in ('let mut iter = self.iter_from_pc(memory);', 'self.regs.pc.0 = iter.next_addr;'):
                pass
            elif l.startswith('let '):
                m = re.match(r'let (.*) = (\w+)\((.*)\);$', l)
                pat, f, args = m.groups()
                if 'self.current_opcode' in args:
                    o.append('  let opcode ← getCurrentOpcode')
                    o.append(f'  let {pat} ← withIter (Decode.{camel(f)} opcode)')
                else:
                    o.append(f'  let {pat} ← withIter Decode.{camel(f)}')
            else:
                o.append('  ' + execute_call(l))
        o.append('')
    a, b, names = table(SRC + 'interpreter_fast.rs')
    assert len(names) == len(isa), (len(names), len(isa))
    o.append(f'/-- interpreter_fast.rs L{a}-{b}: the EXECUTE table. -/')
    o.append('def fastExecute (C : CpuDetails) : Isa → Exec M Nat')
    for i, n in zip(isa, names):
        o.append(f'  | .{i} => fast{cap(n)} C')
    o += ['', 'end Exec', 'end M68k', '']
    open(OUT + 'Fast.lean', 'w').write('\n'.join(o))

def disasm():
    acc = re.findall(r'\n    pub const fn (\w+)\(self\) -> (.*?) \{\n        match self \{\n            Self::(\w+)\((.*?)\) => (.*?),\n', open(SRC + 'instruction.rs').read())
    text = open(SRC + 'instruction.rs').read()
    ty = {'u16': 'U16', 'i16': 'U16', 'u8': 'U8', 'i8': 'U8', 'u32': 'U32', 'Size': 'Size', 'AddressingMode': 'AddressingMode', 'Direction': 'Direction', 'bool': 'Bool'}
    o = ['import Verif.Model.Fast', '/-',
         'Generated by tools/gen_interp_entry.py from m68000/src/interpreter_disassembler.rs (L81-598): the',
         '`instruction_*` methods and the EXECUTE table, and from instruction.rs: the accessors of `Operands`.',
         '-/', 'namespace M68k', '', 'namespace Operands', '']
    for f, t, ctor, vs, ret in acc:
        ln = text[:text.index(f'pub const fn {f}(self)')].count('\n') + 1
        t2 = ' × '.join(ty[x.strip()] for x in t.strip('()').split(','))
        n = len(vs.split(','))
        o.append(f'/-- instruction.rs L{ln}-{ln+5}: `Operands::{f}`; `none` is a panic. -/')
        o.append(f'def {camel(f)} : Operands → Option ({t2})')
        o.append(f'  | .{ctor} {" ".join(v.strip() for v in vs.split(","))} => some {ret}')
        o.append('  | _ => none')
        o.append('')
    o += ['end Operands', '', 'namespace Exec', 'variable {M : Type} [MemoryAccess M]', '',
          '/-- A value whose absence is a panic. -/',
          'def ofOption {α : Type} : Option α → Exec M α', '  | some a => return a', '  | none => panic', '']
    for name, a, b, body in functions(SRC + 'interpreter_disassembler.rs', 'instruction'):
        sig = '(_ : CpuDetails)' if name in NOC else '(C : CpuDetails)'
        inst = '(inst : Instruction)' if any('inst.' in l for l in body) else '(_ : Instruction)'
        o.append(f'/-- interpreter_disassembler.rs L{a}-{b}: `instruction_{name}`. -/')
        o.append(f'def instruction{cap(name)} {sig} {inst} : Exec M Nat := do')
        for l in body:
            if l.startswith('let '):
                m = re.match(r'let (.*) = inst\.operands\.(\w+)\(\);$', l)
                pat, f = m.groups()
                o.append(f'  let {pat} ← ofOption inst.operands.{camel(f)}')
            else:
                o.append('  ' + execute_call(l))
        o.append('')
    a, b, names = table(SRC + 'interpreter_disassembler.rs')
    assert len(names) == len(isa)
    o.append(f'/-- interpreter_disassembler.rs L{a}-{b}: the EXECUTE table. -/')
    o.append('def instructionExecute (C : CpuDetails) : Isa → Instruction → Exec M Nat')
    for i, n in zip(isa, names):
        o.append(f'  | .{i} => instruction{cap(n)} C')
    o += ['', 'end Exec', 'end M68k', '']
    open(OUT + 'Disasm.lean', 'w').write('\n'.join(o))

fast()
disasm()
