#!/usr/bin/env python3
"""Translates m68000/src/disassembler.rs (the `disassemble_*` functions and the DLUT table) to lean/Verif/Model/Text.lean."""
import re
R = '/repo/m68000/src/'
src = open(R + 'disassembler.rs').read().split('\n')
inst = open(R + 'instruction.rs').read()
types = {}
for m in re.finditer(r'pub const fn (\w+)\(self\) -> (.*) \{', inst):
    t = m.group(2).strip('()')
    types[m.group(1)] = [x.strip() for x in t.split(',')]
SHOW = {'u8': 'dec', 'u16': 'dec', 'u32': 'dec', 'i16': 'sdec', 'i8': 'sdec', 'AddressingMode': 'AddressingMode.text',
        'Size': 'Size.text', 'Direction': 'Direction.text'}
def camel(s):
    p = s.split('_')
    return p[0] + ''.join(x.capitalize() for x in p[1:])
def quote(s):
    return '"' + s.replace('\\', '\\\\').replace('"', '\\"') + '".toList'
def fmt(f, args, env):
    out, pos, k = [], 0, 0
    for m in re.finditer(r'\{([^}]*)\}', f):
        if m.start() > pos:
            out.append(quote(f[pos:m.start()]))
        pos = m.end()
        name, _, spec = m.group(1).partition(':')
        if name:
            ty, ex = env[name], name
        else:
            a = args[k]; k += 1
            if a.startswith('disassemble_conditional_test'):
                ty, ex = 'str', 'conditionalTest cc'
            elif a == 'inst.opcode':
                ty, ex = 'u16', 'inst.opcode'
            elif a == 'inst.pc':
                ty, ex = 'u32', 'inst.pc'
            elif a == 'inst.pc.wrapping_add(2).wrapping_add(disp as u32)':
                assert env['disp'] == 'i16'
                ty, ex = 'u32', '(inst.pc + 2 + disp.signExtend 32)'
            else:
                raise Exception(a)
        if ty == 'str':
            assert not spec; out.append('(' + ex + ')')
        elif spec == '':
            out.append(f'{SHOW[ty]} {ex}')
        elif spec == '#X':
            assert ty in ('u16', 'u32', 'AddressingMode')
            out.append(f'AddressingMode.hexText {ex}' if ty == 'AddressingMode' else f'hex {ex}')
        elif spec == '04X':
            out.append(f'hex4 {ex}')
        else:
            raise Exception(spec)
    if pos < len(f):
        out.append(quote(f[pos:]))
    return ' ++ '.join(out)
def expr(l, env):
    l = l.strip()
    m = re.fullmatch(r'"([^"]*)"\.to_(string|owned)\(\)', l)
    if m:
        return quote(m.group(1))
    m = re.fullmatch(r'format!\("((?:[^"\\]|\\.)*)"(?:, (.*))?\)', l)
    assert m, l
    args = re.split(r', (?=inst|disassemble)', m.group(2)) if m.group(2) else []
    return fmt(m.group(1), args, env)
out, names = [], []
i = 0
while i < len(src):
    m = re.match(r'pub fn disassemble_(\w+)\(_?(?:inst)?: &Instruction\) -> String \{', src[i])
    if not m:
        i += 1; continue
    j = i
    while src[j] != '}':
        j += 1
    name = m.group(1); names.append(name)
    body = src[i+1:j]
    env = {}
    lines = []
    used = any('inst' in b for b in body)
    ind = '  '
    for b in body:
        t = b.strip()
        m1 = re.fullmatch(r'let (.*) = inst\.operands\.(\w+)\(\);', t)
        if t.startswith('//'):
            continue
        if m1:
            vs = [v.strip() for v in m1.group(1).strip('()').split(',')]
            tys = types[m1.group(2)]
            assert len(vs) == len(tys), (name, vs, tys)
            for v, ty in zip(vs, tys):
                env[v] = ty
            pat = m1.group(1)
            lines.append(f'{ind}let {pat} ← inst.operands.{camel(m1.group(2))}')
        elif re.fullmatch(r'let (d|rot) = if (d|rot) == 0 \{ 8 \} else \{ (d|rot) \};', t):
            v = t.split()[1]
            lines.append(f'{ind}let {v} : U8 := if {v} = 0 then 8 else {v}')
        elif t.startswith('if ') or t.startswith('} else if '):
            c = re.fullmatch(r'(?:\} else )?if (.*) \{', t).group(1)
            c = c.replace('Direction::', '.').replace('==', '=')
            if c.startswith('bits(inst.opcode, 8, 8) != 0'):
                c = 'bits inst.opcode 8 8 ≠ 0'
            c = c.replace('0b010', '0b010')
            if not t.startswith('if '):
                ind = ind[:-2]
            lines.append(ind + ('if ' if t.startswith('if ') else 'else if ') + c + ' then')
            ind += '  '
        elif t == '} else {':
            ind = ind[:-2]
            lines.append(ind + 'else')
            ind += '  '
        elif t == '}':
            ind = ind[:-2]
        else:
            lines.append(ind + 'return ' + expr(t, env))
    p = 'inst' if used else '_'
    out.append(f'/-- disassembler.rs L{i+1}-{j+1}: `disassemble_{name}`. -/\ndef {camel(name)}Text ({p} : Instruction) : Option Text := do\n' + '\n'.join(lines) + '\n')
    i = j
k = next(n for n, l in enumerate(src) if l.startswith('pub const DLUT'))
dl = []
for l in src[k+1:]:
    if l.startswith(']'): break
    dl.append(l.strip().rstrip(',').replace('disassemble_', ''))
assert sorted(dl) == sorted(names)
isa = open('/verif/lean/Verif/Model/Isa.lean').read()
m = re.search(r'inductive Isa\n(.*?)deriving', isa, re.S)
ctors = re.findall(r'\| (\w+)', m.group(1))
assert len(ctors) == len(dl), (len(ctors), len(dl))
table = '\n'.join(f'  | .{c} => {camel(d)}Text inst' for c, d in zip(ctors, dl))
pre = '''import Verif.Model.Disasm
/-
The texts of the disassembler: `m68000/src/disassembler.rs`, the `Display` and `UpperHex` implementations of `instruction.rs` and
`addressing_modes.rs` and `disassemble_conditional_test` of `status_register.rs`. The functions of disassembler.rs are generated by
tools/gen_text.py. A Rust `String` is the list of its characters. The formats `{}`, `{:#X}` and `{:04X}` of integers are those of the
standard library, written here from their documentation.
-/
namespace M68k

/-- A text. -/
abbrev Text := List Char

namespace Text

/-- The digit `d` in base 16 or less, in upper case. -/
def digit (d : Nat) : Char := "0123456789ABCDEF".toList.getD d '?'

/-- The digits of a number in a base, most significant first, at most `fuel` of them. -/
def digitsAux (base : Nat) : Nat → Nat → Text
  | 0, _ => []
  | fuel + 1, n => if n < base then [digit n] else digitsAux base fuel (n / base) ++ [digit (n % base)]

/-- The digits of a number below 2^32 in base 10 or 16. -/
def digits (base n : Nat) : Text := digitsAux base 32 n

/-- `{}` of an unsigned integer. -/
def dec {w : Nat} (x : BitVec w) : Text := digits 10 x.toNat

/-- `{}` of a signed integer. -/
def sdec {w : Nat} (x : BitVec w) : Text := if x.msb then '-' :: digits 10 (2 ^ w - x.toNat) else digits 10 x.toNat

/-- `{:#X}` of an unsigned integer. -/
def hex {w : Nat} (x : BitVec w) : Text := "0x".toList ++ digits 16 x.toNat

/-- `{:04X}` of an unsigned integer. -/
def hex4 {w : Nat} (x : BitVec w) : Text := List.replicate (4 - (digits 16 x.toNat).length) '0' ++ digits 16 x.toNat

end Text
open Text

/-- instruction.rs L248-257: `Display for Size`. -/
def Size.text : Size → Text
  | .Byte => "B".toList
  | .Word => "W".toList
  | .Long => "L".toList

/-- instruction.rs L110-121: `Display for Direction`. -/
def Direction.text : Direction → Text
  | .Left => "L".toList
  | .Right => "R".toList
  | _ => []

/-- addressing_modes.rs L287-295: `Display for BriefExtensionWord`. -/
def BriefExtensionWord.text (b : BriefExtensionWord) : Text :=
  let x := if b.isAddressReg then "A".toList else "D".toList
  let size := if b.isLong then "L".toList else "W".toList
  x ++ dec b.reg ++ ".".toList ++ size

/-- addressing_modes.rs L205-223: `Display for AddressingMode`. -/
def AddressingMode.text : AddressingMode → Text
  | .Drd reg => "D".toList ++ dec reg
  | .Ard reg => "A".toList ++ dec reg
  | .Ari reg => "(A".toList ++ dec reg ++ ")".toList
  | .Ariwpo reg => "(A".toList ++ dec reg ++ ")+".toList
  | .Ariwpr reg => "-(A".toList ++ dec reg ++ ")".toList
  | .Ariwd reg disp => "(".toList ++ sdec disp ++ ", A".toList ++ dec reg ++ ")".toList
  | .Ariwi8 reg bew => "(".toList ++ sdec bew.disp ++ ", A".toList ++ dec reg ++ ", ".toList ++ bew.text ++ ")".toList
  | .AbsShort addr => "(".toList ++ hex addr ++ ").W".toList
  | .AbsLong addr => "(".toList ++ hex addr ++ ").L".toList
  | .Pciwd _ disp => "(".toList ++ sdec disp ++ ", PC)".toList
  | .Pciwi8 _ bew => "(".toList ++ sdec bew.disp ++ ", PC, ".toList ++ bew.text ++ ")".toList
  | .Immediate imm => "#".toList ++ dec imm

/-- addressing_modes.rs L235-243: `UpperHex for AddressingMode` with the flag `#`. -/
def AddressingMode.hexText : AddressingMode → Text
  | .Immediate imm => "#".toList ++ hex imm
  | am => am.text

/-- status_register.rs L195-215: `disassemble_conditional_test`. -/
def conditionalTest (test : U8) : Text :=
  match test.toNat with
  | 0 => "T".toList
  | 1 => "F".toList
  | 2 => "HI".toList
  | 3 => "LS".toList
  | 4 => "CC".toList
  | 5 => "CS".toList
  | 6 => "NE".toList
  | 7 => "EQ".toList
  | 8 => "VC".toList
  | 9 => "VS".toList
  | 10 => "PL".toList
  | 11 => "MI".toList
  | 12 => "GE".toList
  | 13 => "LT".toList
  | 14 => "GT".toList
  | 15 => "LE".toList
  | _ => "Unknown".toList

namespace Dis

'''
post = f'''
/-- disassembler.rs L{k+1}-{len(src)}: the table `DLUT`, indexed by the `Isa` of the opcode. -/
def dlut (isa : Isa) (inst : Instruction) : Option Text :=
  match isa with
{table}

end Dis

/-- instruction.rs L56-59: `Instruction::disassemble`; `none` is a panic. -/
def Instruction.disassemble (inst : Instruction) : Option Text := Dis.dlut (decoder inst.opcode) inst

end M68k
'''
open('/verif/lean/Verif/Model/Text.lean', 'w').write(pre + '\n'.join(out) + post)
