import re
s=open('/verif/lean/Verif/Spec/Reader.lean').read()
a=s.index('def plain'); b=s.index('/-- The conditional instructions')
names=re.findall(r'^  \("([A-Z]+)", ',s[a:b],re.M)
idx={n:i for i,n in enumerate(names)}
NP=len(names)
out=[]
W=[]   # Written cases
def name(isa,n,f,kind):
    """kind: 'sized' -> ∀ s; None -> no suffix; 'Word'/'Long' fixed"""
    i=idx[n]
    t=isa.lower()
    if kind=='sized':
        out.append(f'theorem name_{t} (s : Size) : Name pc ("{n}.".toList ++ s.text) (some s) ({f}) := by\n  cases s <;> exact name_of {i} (nm := "{n}".toList) (by decide +kernel) rfl\n')
        return f'(name_{t} s)', f'"{n}.".toList ++ s.text'
    if kind is None:
        out.append(f'theorem name_{t} : Name pc "{n}".toList none ({f}) := name_of {i} (nm := "{n}".toList) (by decide +kernel) rfl\n')
        return f'name_{t}', f'"{n}".toList'
    L={'Word':'W','Long':'L'}[kind]
    out.append(f'theorem name_{t} : Name pc "{n}.{L}".toList (some .{kind}) ({f}) := name_of {i} (nm := "{n}".toList) (by decide +kernel) rfl\n')
    return f'name_{t}', f'"{n}.{L}".toList'
D="'D' :: dec "; A="'A' :: dec "
def two(n,a,b): return f"{n} ++ ' ' :: ({a} ++ ',' :: ' ' :: {b})"
def one(n,a): return f"{n} ++ ' ' :: ({a})"
def thm(isa,args,hyps,op,body,acc):
    """body: list of (pre tactic, text, proof)"""
    t=isa.lower()
    h=''.join(f' ({x})' for x in hyps)
    o=f'theorem text_{t} {{{args}}} (ho : inst.operands = {op}){h} :\n    ∃ t, Dis.{t}Text inst = some t ∧ line inst.pc t = known .{isa} inst.operands.canonical := by\n'
    o=o.replace('{}','') if not args else o
    pre,items=body
    if pre: o+=f'  {pre}\n'
    bul='  · ' if len(items)>1 else '  '
    for text,prf in items:
        ac = f', Operands.{acc}' if acc else ''
        sm=f'simp [Dis.{t}Text, ho{ac}]' if isa not in('Ext','Moveusp') else f'unfold Dis.{t}Text; rw [ho]; rfl'
        o+=f'{bul}exact ⟨{text}, by {sm}, by rw [ho]; exact {prf}⟩\n'
    out.append(o)
R='r.toNat'
def camel(s): return s
for isa in ['Add','And','Or','Sub']:
    nm,nt=name(isa,isa.upper(),f'binary .{isa}','sized')
    thm(isa,'r : U8} {d : Direction} {s : Size} {am : AddressingMode',['hd : d = .DstReg ∨ d = .DstEa ∧ ∀ n, am ≠ .Drd n'],'.RegisterDirectionSizeEffectiveAddress r d s am',
      ('rcases hd with rfl | ⟨rfl, hd⟩',[(two(nt,'am.text',D+'r'),f'binary_reg r am {nm}'),(two(nt,D+'r','am.text'),f'binary_mem r am {nm} hd')]),'registerDirectionSizeEffectiveAddress')
    W.append((isa,'∃ r d s am, inst.operands = .RegisterDirectionSizeEffectiveAddress r d s am ∧ (d = .DstReg ∨ d = .DstEa ∧ ∀ n, am ≠ .Drd n)','obtain ⟨r, d, s, am, ho, h⟩ := h','ho h'))
for isa in ['Adda','Cmpa','Suba']:
    nm,nt=name(isa,isa.upper(),f'toAddress .{isa}','sized')
    thm(isa,'r : U8} {s : Size} {am : AddressingMode',[],'.RegisterSizeEffectiveAddress r s am',(None,[(two(nt,'am.text',A+'r'),f'toAddress_line r am {nm}')]),'registerSizeEffectiveAddress')
    W.append((isa,'∃ r s am, inst.operands = .RegisterSizeEffectiveAddress r s am','obtain ⟨r, s, am, ho⟩ := h','ho'))
for isa in ['Addi','Andi','Cmpi','Eori','Ori','Subi']:
    cs={'Andi':'(some .Andiccr) (some .Andisr)','Eori':'(some .Eoriccr) (some .Eorisr)','Ori':'(some .Oriccr) (some .Orisr)'}.get(isa,'none none')
    nm,nt=name(isa,isa.upper(),f'immediate .{isa} {cs}','sized')
    thm(isa,'s : Size} {am : AddressingMode} {v : U32',[],'.SizeEffectiveAddressImmediate s am v',(None,[(two(nt,"'#' :: dec v",'am.text'),f'immediate_line am {nm} v')]),'sizeEffectiveAddressImmediate')
    W.append((isa,'∃ s am v, inst.operands = .SizeEffectiveAddressImmediate s am v','obtain ⟨s, am, v, ho⟩ := h','ho'))
    if cs!='none none':
        for r,chars in (('ccr',"['C', 'C', 'R']"),('sr',"['S', 'R']")):
            i2=isa+r
            nm,nt=name(i2,isa.upper(),f'immediate .{isa} {cs}',None)
            thm(i2,'v : U16',[],'.Immediate v',(None,[(two(nt,'hex v',chars),f'immediate_{r} {nm} v')]),'immediate')
            W.append((i2,'∃ v, inst.operands = .Immediate v','obtain ⟨v, ho⟩ := h','ho'))
for isa in ['Addq','Subq']:
    nm,nt=name(isa,isa.upper(),f'quick .{isa}','sized')
    thm(isa,'d : U8} {s : Size} {am : AddressingMode',['hd : d.toNat < 8'],'.DataSizeEffectiveAddress d s am',(None,[(two(nt,"'#' :: dec (if d = 0 then 8 else d : U8)",'am.text'),f'quick_line am {nm} hd')]),'dataSizeEffectiveAddress')
    W.append((isa,'∃ d s am, inst.operands = .DataSizeEffectiveAddress d s am ∧ d.toNat < 8','obtain ⟨d, s, am, ho, h⟩ := h','ho h'))
PRE=lambda r:f"'-' :: '(' :: 'A' :: (dec {r} ++ [')'])"
for isa in ['Addx','Subx']:
    nm,nt=name(isa,isa.upper(),f'fun s o => do extended .{isa} (← s) o','sized')
    thm(isa,'rx ry : U8} {s : Size} {d : Direction',['hd : d = .RegisterToRegister ∨ d = .MemoryToMemory'],'.RegisterSizeModeRegister rx s d ry',
      ('rcases hd with rfl | rfl',[(two(nt,D+'ry',D+'rx'),f'extended_reg rx ry {nm} rfl'),(two(nt,'('+PRE('ry')+')',PRE('rx')),f'extended_mem rx ry {nm} rfl')]),'registerSizeModeRegister')
    W.append((isa,'∃ rx ry s d, inst.operands = .RegisterSizeModeRegister rx s d ry ∧ (d = .RegisterToRegister ∨ d = .MemoryToMemory)','obtain ⟨rx, ry, s, d, ho, h⟩ := h','ho h'))
for isa in ['Abcd','Sbcd']:
    nm,nt=name(isa,isa.upper(),f'fun s o => if s = none then extended .{isa} .Byte o else none',None)
    thm(isa,'rx ry : U8} {d : Direction',['hd : d = .RegisterToRegister ∨ d = .MemoryToMemory'],'.RegisterSizeModeRegister rx .Byte d ry',
      ('rcases hd with rfl | rfl',[(two(nt,D+'ry',D+'rx'),f'extended_reg rx ry {nm} rfl'),(two(nt,'('+PRE('ry')+')',PRE('rx')),f'extended_mem rx ry {nm} rfl')]),'registerSizeModeRegister')
    W.append((isa,'∃ rx ry d, inst.operands = .RegisterSizeModeRegister rx .Byte d ry ∧ (d = .RegisterToRegister ∨ d = .MemoryToMemory)','obtain ⟨rx, ry, d, ho, h⟩ := h','ho h'))
for base,m,r in (('AS','Asm','Asr'),('LS','Lsm','Lsr'),('RO','Rom','Ror'),('ROX','Roxm','Roxr')):
    ps={}
    for L,dd in (('L','Left'),('R','Right')):
        n=base+L
        ps[L]=(name(m+'_'+L,n,f'shift .{m} .{r} .{dd}',None),name(r+'_'+L,n,f'shift .{m} .{r} .{dd}','sized'))
    thm(m,'d : Direction} {am : AddressingMode',['hd : d = .Left ∨ d = .Right'],'.DirectionEffectiveAddress d am',
      ('rcases hd with rfl | rfl',[(one(ps[L][0][1],'am.text'),f'shift_mem am {ps[L][0][0]}') for L in 'LR']),'directionEffectiveAddress, Direction.text')
    W.append((m,'∃ d am, inst.operands = .DirectionEffectiveAddress d am ∧ (d = .Left ∨ d = .Right)','obtain ⟨d, am, ho, h⟩ := h','ho h'))
    items=[]
    for L in 'LR':
        for mode in (0,1):
            (nm,nt)=ps[L][1]
            if mode: items.append((two(nt,D+'rx',D+'ry'),f'shift_reg rx ry {nm}'))
            else: items.append((two(nt,"'#' :: dec (if rx = 0 then 8 else rx : U8)",D+'ry'),f'shift_imm rx ry {nm} hx'))
    thm(r,'rx ry : U8} {s : Size} {d : Direction} {b : Bool',['hx : rx.toNat < 8','hd : d = .Left ∨ d = .Right'],'.RotationDirectionSizeModeRegister rx d s b ry',
      ('rcases hd with rfl | rfl <;> cases b',items),'rotationDirectionSizeModeRegister, Direction.text')
    W.append((r,'∃ rx ry s d b, inst.operands = .RotationDirectionSizeModeRegister rx d s b ry ∧ rx.toNat < 8 ∧ (d = .Left ∨ d = .Right)','obtain ⟨rx, ry, s, d, b, ho, h1, h2⟩ := h','ho h1 h2'))
for isa in ['Bchg','Bclr','Bset','Btst']:
    nm,nt=name(isa,isa.upper(),f'bitOp .{isa}',None)
    t=isa.lower()
    out.append(f'''theorem text_{t} {{r : U8}} {{am : AddressingMode}} (ho : inst.operands = .EffectiveAddressCount am r) :
    ∃ t, Dis.{t}Text inst = some t ∧ line inst.pc t = some (.instruction .{isa} (decide (bits inst.opcode 8 8 ≠ 0)) inst.operands.canonical) := by
  by_cases h : bits inst.opcode 8 8 = 0
  · exact ⟨{two(nt,"'#' :: dec r",'am.text')}, by simp [Dis.{t}Text, ho, Operands.effectiveAddressCount, h], by rw [ho]; simp only [h, ne_eq, not_true_eq_false, decide_false]; exact bitOp_imm r am {nm}⟩
  · exact ⟨{two(nt,D+'r','am.text')}, by simp [Dis.{t}Text, ho, Operands.effectiveAddressCount]; exact h, by rw [ho]; simp only [h, ne_eq, not_false_eq_true, decide_true]; exact bitOp_reg r am {nm}⟩
''')
    W.append((isa,'∃ r am, inst.operands = .EffectiveAddressCount am r','obtain ⟨r, am, ho⟩ := h','ho'))
for isa in ['Chk','Divs','Divu','Muls','Mulu']:
    nm,nt=name(isa,isa.upper(),f'wordToData .{isa}','Word')
    thm(isa,'r : U8} {am : AddressingMode',[],'.RegisterEffectiveAddress r am',(None,[(two(nt,'am.text',D+'r'),f'wordToData_line r am {nm}')]),'registerEffectiveAddress')
    W.append((isa,'∃ r am, inst.operands = .RegisterEffectiveAddress r am','obtain ⟨r, am, ho⟩ := h','ho'))
for isa in ['Clr','Neg','Negx','Not','Tst']:
    nm,nt=name(isa,isa.upper(),f'sized .{isa}','sized')
    thm(isa,'s : Size} {am : AddressingMode',[],'.SizeEffectiveAddress s am',(None,[(one(nt,'am.text'),f'sized_line am {nm}')]),'sizeEffectiveAddress')
    W.append((isa,'∃ s am, inst.operands = .SizeEffectiveAddress s am','obtain ⟨s, am, ho⟩ := h','ho'))
for isa in ['Jmp','Jsr','Nbcd','Pea','Tas']:
    nm,nt=name(isa,isa.upper(),f'single .{isa}',None)
    thm(isa,'am : AddressingMode',[],'.EffectiveAddress am',(None,[(one(nt,'am.text'),f'single_line am {nm}')]),'effectiveAddress')
    W.append((isa,'∃ am, inst.operands = .EffectiveAddress am','obtain ⟨am, ho⟩ := h','ho'))
for isa in ['Illegal','Nop','Reset','Rte','Rtr','Rts','Trapv']:
    nm,nt=name(isa,isa.upper(),f'alone .{isa}',None)
    thm(isa,'',[],'.NoOperands',(None,[(nt,f'alone_line {nm}')]),'')
    W.append((isa,'inst.operands = .NoOperands',None,'h'))
for isa in ['Bra','Bsr']:
    nm,nt=name(isa,isa.upper(),f'branch .{isa} pc',None)
    thm(isa,'d : U16',[],'.Displacement d',(None,[(one(nt,"sdec d ++ (' ' :: '<' :: (hex (inst.pc + 2 + d.signExtend 32) ++ ['>']))"),f'branch_line {nm} d')]),'displacement')
    W.append((isa,'∃ d, inst.operands = .Displacement d','obtain ⟨d, ho⟩ := h','ho'))
def fn(n):
    """the entry of the table as a term: names_i"""
    return f'entry {idx[n]} pc'
def special(isa,n,kind,args,hyps,op,body,acc,tname=None):
    """body items (text a, text b or None, reads a, reads b, simp)"""
    i=idx[n]; t=isa.lower()
    nmtext={'sized':f'("{n}.".toList ++ s.text)',None:f'"{n}".toList','Word':f'"{n}.W".toList','Long':f'"{n}.L".toList'}[kind]
    sz={'sized':'(some s)',None:'none','Word':'(some .Word)','Long':'(some .Long)'}[kind]
    pf=f'name_of {i} (nm := "{n}".toList) (by decide +kernel) rfl'
    if kind=='sized': nmthm=f'theorem name_{t} (s : Size) : Name pc {nmtext} {sz} ({n.lower()}) := by\n  cases s <;> exact {pf}\n'; use=f'(name_{t} s)'
    else: nmthm=f'theorem name_{t} : Name pc {nmtext} {sz} ({n.lower()}) := {pf}\n'; use=f'name_{t}'
    out.append(nmthm)
    pre,items=body
    its=[]
    for ta,tb,ra,rb,fin in items:
        fin=fin.replace('ENTRY',n.lower())
        text=two(nmtext,ta,tb) if tb else one(nmtext,ta)
        prf=f'(line_two {use} {ra} {rb}).trans ({fin})' if tb else f'(line_one {use} {ra}).trans ({fin})'
        its.append((text,prf))
    thm(isa,args,hyps,op,(pre,its),acc)
amfin=lambda e:f'by show ((opndOf am).mode >>= fun x => known {e}) = _; rw [mode_opndOf]; rfl'
REG='by simp only [entry_eq, reg, BitVec.ofNat_toNat, BitVec.setWidth_eq, BitVec.ofInt_toInt]; rfl'
special('Cmp','CMP','sized','r : U8} {s : Size} {am : AddressingMode',[],'.RegisterDirectionSizeEffectiveAddress r .DstReg s am',(None,[('am.text',D+'r','(reads_mode am)','(reads_d r)','by simp [ENTRY, mode_opndOf, reg, Operands.canonical]')]),'registerDirectionSizeEffectiveAddress')
W.append(('Cmp','∃ r s am, inst.operands = .RegisterDirectionSizeEffectiveAddress r .DstReg s am','obtain ⟨r, s, am, ho⟩ := h','ho'))
S='by simp [ENTRY, mode_opndOf, reg, Operands.canonical]'
special('Cmpm','CMPM','sized','rx ry : U8} {s : Size',[],'.RegisterSizeRegister rx s ry',(None,[("('(' :: 'A' :: (dec ry ++ [')', '+']))","'(' :: 'A' :: (dec rx ++ [')', '+'])",'(reads_postinc ry)','(reads_postinc rx)',S)]),'registerSizeRegister')
W.append(('Cmpm','∃ rx ry s, inst.operands = .RegisterSizeRegister rx s ry','obtain ⟨rx, ry, s, ho⟩ := h','ho'))
special('Eor','EOR','sized','r : U8} {s : Size} {am : AddressingMode',[],'.RegisterDirectionSizeEffectiveAddress r .DstEa s am',(None,[(D+'r','am.text','(reads_d r)','(reads_mode am)',S)]),'registerDirectionSizeEffectiveAddress')
W.append(('Eor','∃ r s am, inst.operands = .RegisterDirectionSizeEffectiveAddress r .DstEa s am','obtain ⟨r, s, am, ho⟩ := h','ho'))
special('Exg','EXG',None,'rx ry : U8} {d : Direction',['hd : d = .ExchangeData ∨ d = .ExchangeAddress ∨ d = .ExchangeDataAddress'],'.RegisterOpmodeRegister rx d ry',
  ('rcases hd with rfl | rfl | rfl',[(D+'rx',D+'ry','(reads_d rx)','(reads_d ry)',S),(A+'rx',A+'ry','(reads_a rx)','(reads_a ry)',S),(D+'rx',A+'ry','(reads_d rx)','(reads_a ry)',S)]),'registerOpmodeRegister')
W.append(('Exg','∃ rx ry d, inst.operands = .RegisterOpmodeRegister rx d ry ∧ (d = .ExchangeData ∨ d = .ExchangeAddress ∨ d = .ExchangeDataAddress)','obtain ⟨rx, ry, d, ho, h⟩ := h','ho h'))
SE=S.replace('ENTRY','ext')
i=idx['EXT']
for L,sz in (('W','Word'),('L','Long')):
    out.append(f'theorem name_ext{L} : Name pc "EXT.{L}".toList (some .{sz}) (ext) := name_of {i} (nm := "EXT".toList) (by decide +kernel) rfl\n')
thm('Ext','m r : U8',['hd : m = 2 ∨ m = 3'],'.OpmodeRegister m r',('rcases hd with rfl | rfl',[(one(f'"EXT.{L}".toList',D+'r'),f'(line_one name_ext{L} (reads_d r)).trans ({SE})') for L in 'WL']),'opmodeRegister')
W.append(('Ext','∃ m r, inst.operands = .OpmodeRegister m r ∧ (m = 2 ∨ m = 3)','obtain ⟨m, r, ho, h⟩ := h','ho h'))
special('Lea','LEA',None,'r : U8} {am : AddressingMode',[],'.RegisterEffectiveAddress r am',(None,[('am.text',A+'r','(reads_mode am)','(reads_a r)',S)]),'registerEffectiveAddress')
W.append(('Lea','∃ r am, inst.operands = .RegisterEffectiveAddress r am','obtain ⟨r, am, ho⟩ := h','ho'))
special('Link','LINK','Word','r : U8} {d : U16',[],'.RegisterDisplacement r d',(None,[(A+'r',"'#' :: sdec d",'(reads_a r)','(reads_simm d (by omega))',S)]),'registerDisplacement')
W.append(('Link','∃ r d, inst.operands = .RegisterDisplacement r d','obtain ⟨r, d, ho⟩ := h','ho'))
special('Move','MOVE','sized','s : Size} {dst src : AddressingMode',[],'.SizeEffectiveAddressEffectiveAddress s dst src',(None,[('src.text','dst.text','(reads_mode src)','(reads_mode dst)',S)]),'sizeEffectiveAddressEffectiveAddress')
W.append(('Move','∃ s dst src, inst.operands = .SizeEffectiveAddressEffectiveAddress s dst src','obtain ⟨s, dst, src, ho⟩ := h','ho'))
special('Movea','MOVEA','sized','s : Size} {r : U8} {am : AddressingMode',[],'.SizeRegisterEffectiveAddress s r am',(None,[('am.hexText',A+'r','(reads_hexMode am)','(reads_a r)',S)]),'sizeRegisterEffectiveAddress')
W.append(('Movea','∃ s r am, inst.operands = .SizeRegisterEffectiveAddress s r am','obtain ⟨s, r, am, ho⟩ := h','ho'))
SC='by cases am <;> simp [ENTRY, opndOf, Opnd.mode, brief_canonical, reg, Operands.canonical, AddressingMode.canonical]'
special('Moveccr','MOVE',None,'am : AddressingMode',[],'.EffectiveAddress am',(None,[('am.hexText',"['C', 'C', 'R']",'(reads_hexMode am)','reads_ccr',SC)]),'effectiveAddress')
special('Movesr','MOVE',None,'am : AddressingMode',[],'.EffectiveAddress am',(None,[('am.hexText',"['S', 'R']",'(reads_hexMode am)','reads_sr',SC)]),'effectiveAddress')
special('Movefsr','MOVE',None,'am : AddressingMode',[],'.EffectiveAddress am',(None,[("['S', 'R']",'am.hexText','reads_sr','(reads_hexMode am)',SC)]),'effectiveAddress')
for x in ('Moveccr','Movesr','Movefsr'): W.append((x,'∃ am, inst.operands = .EffectiveAddress am','obtain ⟨am, ho⟩ := h','ho'))
special('Moveusp','MOVE',None,'d : Direction} {r : U8',['hd : d = .UspToRegister ∨ d = .RegisterToUsp'],'.DirectionRegister d r',('rcases hd with rfl | rfl',[("['U', 'S', 'P']",A+'r','reads_usp','(reads_a r)',S),(A+'r',"['U', 'S', 'P']",'(reads_a r)','reads_usp',S)]),'directionRegister')
W.append(('Moveusp','∃ d r, inst.operands = .DirectionRegister d r ∧ (d = .UspToRegister ∨ d = .RegisterToUsp)','obtain ⟨d, r, ho, h⟩ := h','ho h'))
special('Movem','MOVEM','sized','d : Direction} {s : Size} {am : AddressingMode} {l : U16',['hd : d = .MemoryToRegister ∨ d = .RegisterToMemory'],'.DirectionSizeEffectiveAddressList d s am l',
  ('rcases hd with rfl | rfl',[('am.text','hex l','(reads_mode am)','(reads_lit l (by omega))',SC),('hex l','am.text','(reads_lit l (by omega))','(reads_mode am)',S)]),'directionSizeEffectiveAddressList')
W.append(('Movem','∃ d s am l, inst.operands = .DirectionSizeEffectiveAddressList d s am l ∧ (d = .MemoryToRegister ∨ d = .RegisterToMemory)','obtain ⟨d, s, am, l, ho, h⟩ := h','ho h'))
DISP="'(' :: (sdec e ++ (',' :: ' ' :: 'A' :: (dec a ++ [')'])))"
special('Movep','MOVEP','sized','r a : U8} {d : Direction} {s : Size} {e : U16',['hd : d = .MemoryToRegister ∨ d = .RegisterToMemory'],'.RegisterDirectionSizeRegisterDisplacement r d s a e',
  ('rcases hd with rfl | rfl',[('('+DISP+')',D+'r','(reads_disp e a)','(reads_d r)',S),(D+'r',DISP,'(reads_d r)','(reads_disp e a)',S)]),'registerDirectionSizeRegisterDisplacement')
W.append(('Movep','∃ r a d s e, inst.operands = .RegisterDirectionSizeRegisterDisplacement r d s a e ∧ (d = .MemoryToRegister ∨ d = .RegisterToMemory)','obtain ⟨r, a, d, s, e, ho, h⟩ := h','ho h'))
special('Moveq','MOVEQ','Long','r d : U8',[],'.RegisterData r d',(None,[("'#' :: sdec d",D+'r','(reads_simm d (by omega))','(reads_d r)',S)]),'registerData')
W.append(('Moveq','∃ r d, inst.operands = .RegisterData r d','obtain ⟨r, d, ho⟩ := h','ho'))
special('Stop','STOP',None,'v : U16',[],'.Immediate v',(None,[("'#' :: hex v",None,'(reads_hexImm v (by omega))',None,S)]),'immediate')
W.append(('Stop','∃ v, inst.operands = .Immediate v','obtain ⟨v, ho⟩ := h','ho'))
special('Swap','SWAP',None,'r : U8',[],'.Register r',(None,[(D+'r',None,'(reads_d r)',None,S)]),'register')
W.append(('Swap','∃ r, inst.operands = .Register r','obtain ⟨r, ho⟩ := h','ho'))
special('Trap','TRAP',None,'v : U8',[],'.Vector v',(None,[("'#' :: dec v",None,'(reads_imm v (by omega))',None,S)]),'vector')
W.append(('Trap','∃ v, inst.operands = .Vector v','obtain ⟨v, ho⟩ := h','ho'))
special('Unlk','UNLK',None,'r : U8',[],'.Register r',(None,[(A+'r',None,'(reads_a r)',None,S)]),'register')
W.append(('Unlk','∃ r, inst.operands = .Register r','obtain ⟨r, ho⟩ := h','ho'))
CE=['bcc pc','dbcc pc','scc']
for k,(isa,pre,args,op,texts,reads,acc,wit,pat) in enumerate([
  ('Bcc','B','c : U8} {d : U16','.ConditionDisplacement c d',("sdec d ++ (' ' :: '<' :: (hex (inst.pc + 2 + d.signExtend 32) ++ ['>']))",None),('(reads_rel d _)',None),'conditionDisplacement','∃ c d, inst.operands = .ConditionDisplacement c d ∧ c.toNat < 16','obtain ⟨c, d, ho, h⟩ := h'),
  ('Dbcc','DB','c r : U8} {d : U16','.ConditionRegisterDisplacement c r d',(D+'r',"(sdec d ++ (' ' :: '<' :: (hex (inst.pc + 2 + d.signExtend 32) ++ ['>'])))"),('(reads_d r)','(reads_rel d _)'),'conditionRegisterDisplacement','∃ c r d, inst.operands = .ConditionRegisterDisplacement c r d ∧ c.toNat < 16','obtain ⟨c, r, d, ho, h⟩ := h'),
  ('Scc','S','c : U8} {am : AddressingMode','.ConditionEffectiveAddress c am',('am.text',None),('(reads_mode am)',None),'conditionEffectiveAddress','∃ c am, inst.operands = .ConditionEffectiveAddress c am ∧ c.toNat < 16','obtain ⟨c, am, ho, h⟩ := h')]):
    t=isa.lower()
    out.append(f'''theorem name_{t} {{c : U8}} (h : c.toNat < 16) : Name pc ("{pre}".toList ++ conditionalTest c) none ({CE[k]} c) := by
  have hn : ∀ n : Fin 16, ' ' ∉ ("{pre}".toList ++ conditionalTest (BitVec.ofNat 8 n.val)) ∧ ("{pre}".toList ++ conditionalTest (BitVec.ofNat 8 n.val)) ≠ "Unknown".toList ∧
      mnemonic ("{pre}".toList ++ conditionalTest (BitVec.ofNat 8 n.val)) = some ("{pre}".toList ++ conditionalTest (BitVec.ofNat 8 n.val), none) ∧
      names.findIdx? (· == ("{pre}".toList ++ conditionalTest (BitVec.ofNat 8 n.val))) = some ({NP+k} + 3 * n.val) := by decide +kernel
  have hc := hn ⟨c.toNat, h⟩
  simp only [BitVec.ofNat_toNat, BitVec.setWidth_eq] at hc
  refine name_of ({NP+k} + 3 * c.toNat) hc ?_
  have hm : ∀ n : Fin 16, (mnemonics pc)[{NP+k} + 3 * n.val]? = some ("{pre}".toList ++ conditionalTest (BitVec.ofNat 8 n.val), {CE[k]} (BitVec.ofNat 8 n.val)) := by
    intro n
    rcases fin16_cases n with {' | '.join(['rfl']*16)} <;> rfl
  have := hm ⟨c.toNat, h⟩
  simpa using this
''')
    text=two(f'("{pre}".toList ++ conditionalTest c)',texts[0],texts[1]) if texts[1] else one(f'("{pre}".toList ++ conditionalTest c)',texts[0])
    S2=f'by simp only [{t}, leadsTo_disp, if_true, reg, BitVec.ofNat_toNat, BitVec.setWidth_eq, BitVec.ofInt_toInt, mode_opndOf]; rfl'
    prf=f'(line_two (name_{t} h) {reads[0]} {reads[1]}).trans ({S2})' if texts[1] else f'(line_one (name_{t} h) {reads[0]}).trans ({S2})'
    thm(isa,args,['h : c.toNat < 16'],op,(None,[(text,prf)]),acc)
    W.append((isa,wit,pat,'ho h'))
ctors=re.findall(r'\| (\w+)',re.search(r'inductive Isa\n(.*?)deriving',open('/verif/lean/Verif/Model/Isa.lean').read(),re.S).group(1))
wd={w[0]:w for w in W}
assert set(wd)|{'Unknown'}==set(ctors), set(ctors)^set(wd)
wr='/-- The operands an instruction is decoded with, as far as its text needs it. -/\ndef Written (inst : Instruction) : Isa → Prop\n  | .Unknown => True\n'+'\n'.join(f'  | .{c} => {wd[c][1]}' for c in ctors if c!='Unknown')+'\n'
fin='''theorem text_reads {isa : Isa} (hu : isa ≠ .Unknown) (h : Written inst isa) :
    ∃ t, Dis.dlut isa inst = some t ∧ line inst.pc t = some (.instruction isa (inRegister isa inst.opcode) inst.operands.canonical) := by
  cases isa
  case Unknown => exact absurd rfl hu
'''
for c in ctors:
    if c=='Unknown': continue
    _,_,ob,ar=wd[c]
    if ob is None: fin+=f'  case {c} => exact text_{c.lower()} {ar}\n'
    elif c in('Bchg','Bclr','Bset','Btst'): fin+=f'  case {c} =>\n    {ob}\n    have h := text_{c.lower()} ho\n    rw [bits_flag] at h\n    exact h\n'
    else: fin+=f'  case {c} =>\n    {ob}\n    exact text_{c.lower()} {ar}\n'
pre='''import Verif.Lemmas.TextLines
import Verif.Lemmas.Decode
/-
Every instruction is read back from its text. Generated by tools/gen_text_lemmas.py.
-/
namespace M68k.Spec.Reader
open Text Exec

variable {pc : U32} {inst : Instruction}

theorem fin16_cases (n : Fin 16) : '''+' ∨ '.join(f'n = {i}' for i in range(16))+''' := by
  revert n; decide

theorem bits_flag (op : U16) : decide (bits op 8 8 ≠ 0) = flag op 8 := by
  rw [← bit_flag op 8 (by omega), bit_eq op 8 (by omega)]
  apply Bool.eq_iff_iff.2
  simp only [decide_eq_true_eq]
  have : ((1 : U16) <<< 1 - 1).toNat = 2 ^ 1 - 1 := rfl
  have e : (bits op 8 8).toNat = op.toNat / 2 ^ 8 % 2 := by
    simp only [bits, BitVec.toNat_and, this, Nat.and_two_pow_sub_one_eq_mod, BitVec.toNat_ushiftRight, Nat.shiftRight_eq_div_pow]
  constructor
  · intro h
    have h : (bits op 8 8).toNat ≠ 0 := fun h' => h (BitVec.eq_of_toNat_eq h')
    omega
  · intro h h'
    rw [h'] at e
    simp at e
    omega

'''
open('/verif/lean/Verif/Lemmas/TextIsa.lean','w').write(pre+'\n'.join(out)+'\n'+wr+'\n'+fin+'\nend M68k.Spec.Reader\n')
