/-
GENERATED by tools/gen_cpu_details.py from m68000/src/cpu_details.rs,
m68000/src/cpu_details/mc68000.rs and m68000/src/cpu_details/scc68070.rs.
-/
import Verif.Model.Basic

namespace M68k

/-- cpu_details.rs L16-19. -/
inductive StackFormat
  | MC68000
  | SCC68070
deriving DecidableEq, Repr

/-- cpu_details.rs L73-440: trait `CpuDetails` as a record; an instance of the trait is a value of it.
`usize` execution times are `Nat`. -/
structure CpuDetails where
  STACK_FORMAT : StackFormat
  vectorExecutionTime : U8 → Nat
  VECTOR_RESET : Nat -- L78
  EA_ARI : Nat -- L83
  EA_ARIWPO : Nat -- L85
  EA_ARIWPR : Nat -- L87
  EA_ARIWD : Nat -- L89
  EA_ARIWI8 : Nat -- L91
  EA_ABSSHORT : Nat -- L93
  EA_ABSLONG : Nat -- L95
  EA_PCIWD : Nat -- L97
  EA_PCIWI8 : Nat -- L99
  EA_IMMEDIATE : Nat -- L101
  ABCD_REG : Nat -- L103
  ABCD_MEM : Nat -- L104
  ADD_REG_BW : Nat -- L106
  ADD_REG_L : Nat -- L107
  ADD_REG_L_RDIMM : Nat -- L108
  ADD_MEM_BW : Nat -- L109
  ADD_MEM_L : Nat -- L110
  ADDA_WORD : Nat -- L112
  ADDA_LONG : Nat -- L113
  ADDA_LONG_RDIMM : Nat -- L114
  ADDI_REG_BW : Nat -- L116
  ADDI_REG_L : Nat -- L117
  ADDI_MEM_BW : Nat -- L118
  ADDI_MEM_L : Nat -- L119
  ADDQ_REG_BW : Nat -- L121
  ADDQ_REG_L : Nat -- L122
  ADDQ_MEM_BW : Nat -- L123
  ADDQ_MEM_L : Nat -- L124
  ADDX_REG_BW : Nat -- L126
  ADDX_REG_L : Nat -- L127
  ADDX_MEM_BW : Nat -- L128
  ADDX_MEM_L : Nat -- L129
  AND_REG_BW : Nat -- L131
  AND_REG_L : Nat -- L132
  AND_REG_L_RDIMM : Nat -- L133
  AND_MEM_BW : Nat -- L134
  AND_MEM_L : Nat -- L135
  ANDI_REG_BW : Nat -- L137
  ANDI_REG_L : Nat -- L138
  ANDI_MEM_BW : Nat -- L139
  ANDI_MEM_L : Nat -- L140
  ANDICCR : Nat -- L142
  ANDISR : Nat -- L144
  ASM : Nat -- L147
  ASR_COUNT : Nat -- L150
  ASR_BW : Nat -- L152
  ASR_L : Nat -- L154
  BCC_BRANCH : Nat -- L156
  BCC_NO_BRANCH_BYTE : Nat -- L157
  BCC_NO_BRANCH_WORD : Nat -- L158
  BCHG_DYN_REG : Nat -- L160
  BCHG_DYN_MEM : Nat -- L161
  BCHG_STA_REG : Nat -- L162
  BCHG_STA_MEM : Nat -- L163
  BCLR_DYN_REG : Nat -- L165
  BCLR_DYN_MEM : Nat -- L166
  BCLR_STA_REG : Nat -- L167
  BCLR_STA_MEM : Nat -- L168
  BRA_BYTE : Nat -- L170
  BRA_WORD : Nat -- L171
  BSET_DYN_REG : Nat -- L173
  BSET_DYN_MEM : Nat -- L174
  BSET_STA_REG : Nat -- L175
  BSET_STA_MEM : Nat -- L176
  BSR_BYTE : Nat -- L178
  BSR_WORD : Nat -- L179
  BTST_DYN_REG : Nat -- L181
  BTST_DYN_MEM : Nat -- L182
  BTST_STA_REG : Nat -- L183
  BTST_STA_MEM : Nat -- L184
  CHK_NO_TRAP : Nat -- L186
  CLR_REG_BW : Nat -- L188
  CLR_REG_L : Nat -- L189
  CLR_MEM_BW : Nat -- L190
  CLR_MEM_L : Nat -- L191
  CMP_BW : Nat -- L193
  CMP_L : Nat -- L194
  CMPA : Nat -- L196
  CMPI_REG_BW : Nat -- L198
  CMPI_REG_L : Nat -- L199
  CMPI_MEM_BW : Nat -- L200
  CMPI_MEM_L : Nat -- L201
  CMPM_BW : Nat -- L203
  CMPM_L : Nat -- L204
  DBCC_TRUE : Nat -- L206
  DBCC_FALSE_BRANCH : Nat -- L207
  DBCC_FALSE_NO_BRANCH : Nat -- L208
  DIVS : Nat -- L210
  DIVU : Nat -- L212
  EOR_REG_BW : Nat -- L214
  EOR_REG_L : Nat -- L215
  EOR_MEM_BW : Nat -- L216
  EOR_MEM_L : Nat -- L217
  EORI_REG_BW : Nat -- L219
  EORI_REG_L : Nat -- L220
  EORI_MEM_BW : Nat -- L221
  EORI_MEM_L : Nat -- L222
  EORICCR : Nat -- L224
  EORISR : Nat -- L226
  EXG : Nat -- L228
  EXT : Nat -- L230
  JMP_ARI : Nat -- L232
  JMP_ARIWD : Nat -- L233
  JMP_ARIWI8 : Nat -- L234
  JMP_ABSSHORT : Nat -- L235
  JMP_ABSLONG : Nat -- L236
  JMP_PCIWD : Nat -- L237
  JMP_PCIWI8 : Nat -- L238
  JSR_ARI : Nat -- L240
  JSR_ARIWD : Nat -- L241
  JSR_ARIWI8 : Nat -- L242
  JSR_ABSSHORT : Nat -- L243
  JSR_ABSLONG : Nat -- L244
  JSR_PCIWD : Nat -- L245
  JSR_PCIWI8 : Nat -- L246
  LEA_ARI : Nat -- L248
  LEA_ARIWD : Nat -- L249
  LEA_ARIWI8 : Nat -- L250
  LEA_ABSSHORT : Nat -- L251
  LEA_ABSLONG : Nat -- L252
  LEA_PCIWD : Nat -- L253
  LEA_PCIWI8 : Nat -- L254
  LINK : Nat -- L256
  LSM : Nat -- L259
  LSR_COUNT : Nat -- L262
  LSR_BW : Nat -- L264
  LSR_L : Nat -- L266
  MOVE_DST_ARIWPR : Nat -- L269
  MOVE_OTHER : Nat -- L271
  MOVEA : Nat -- L273
  MOVECCR : Nat -- L275
  MOVEFSR_REG : Nat -- L278
  MOVEFSR_MEM : Nat -- L280
  MOVESR : Nat -- L283
  MOVEUSP : Nat -- L285
  MOVEM_WORD : Nat -- L287
  MOVEM_LONG : Nat -- L288
  MOVEM_MTR : Nat -- L289
  MOVEM_ARI : Nat -- L290
  MOVEM_ARIWPO : Nat -- L291
  MOVEM_ARIWPR : Nat -- L292
  MOVEM_ARIWD : Nat -- L293
  MOVEM_ARIWI8 : Nat -- L294
  MOVEM_ABSSHORT : Nat -- L295
  MOVEM_ABSLONG : Nat -- L296
  MOVEM_PCIWD : Nat -- L297
  MOVEM_PCIWI8 : Nat -- L298
  MOVEP_RTM_WORD : Nat -- L301
  MOVEP_RTM_LONG : Nat -- L303
  MOVEP_MTR_WORD : Nat -- L305
  MOVEP_MTR_LONG : Nat -- L307
  MOVEQ : Nat -- L309
  MULS : Nat -- L311
  MULU : Nat -- L313
  NBCD_REG : Nat -- L315
  NBCD_MEM : Nat -- L316
  NEG_REG_BW : Nat -- L318
  NEG_REG_L : Nat -- L319
  NEG_MEM_BW : Nat -- L320
  NEG_MEM_L : Nat -- L321
  NEGX_REG_BW : Nat -- L323
  NEGX_REG_L : Nat -- L324
  NEGX_MEM_BW : Nat -- L325
  NEGX_MEM_L : Nat -- L326
  NOP : Nat -- L328
  NOT_REG_BW : Nat -- L330
  NOT_REG_L : Nat -- L331
  NOT_MEM_BW : Nat -- L332
  NOT_MEM_L : Nat -- L333
  OR_REG_BW : Nat -- L335
  OR_REG_L : Nat -- L336
  OR_REG_L_RDIMM : Nat -- L337
  OR_MEM_BW : Nat -- L338
  OR_MEM_L : Nat -- L339
  ORI_REG_BW : Nat -- L341
  ORI_REG_L : Nat -- L342
  ORI_MEM_BW : Nat -- L343
  ORI_MEM_L : Nat -- L344
  ORICCR : Nat -- L346
  ORISR : Nat -- L348
  PEA_ARI : Nat -- L350
  PEA_ARIWD : Nat -- L351
  PEA_ARIWI8 : Nat -- L352
  PEA_ABSSHORT : Nat -- L353
  PEA_ABSLONG : Nat -- L354
  PEA_PCIWD : Nat -- L355
  PEA_PCIWI8 : Nat -- L356
  RESET : Nat -- L358
  ROM : Nat -- L361
  ROR_COUNT : Nat -- L364
  ROR_BW : Nat -- L366
  ROR_L : Nat -- L368
  ROXM : Nat -- L371
  ROXR_COUNT : Nat -- L374
  ROXR_BW : Nat -- L376
  ROXR_L : Nat -- L378
  RTE : Nat -- L380
  RTR : Nat -- L382
  RTS : Nat -- L384
  SBCD_REG : Nat -- L386
  SBCD_MEM : Nat -- L387
  SCC_REG_FALSE : Nat -- L390
  SCC_REG_TRUE : Nat -- L392
  SCC_MEM_FALSE : Nat -- L394
  SCC_MEM_TRUE : Nat -- L396
  STOP : Nat -- L398
  SUB_REG_BW : Nat -- L400
  SUB_REG_L : Nat -- L401
  SUB_REG_L_RDIMM : Nat -- L402
  SUB_MEM_BW : Nat -- L403
  SUB_MEM_L : Nat -- L404
  SUBA_WORD : Nat -- L406
  SUBA_LONG : Nat -- L407
  SUBA_LONG_RDIMM : Nat -- L408
  SUBI_REG_BW : Nat -- L410
  SUBI_REG_L : Nat -- L411
  SUBI_MEM_BW : Nat -- L412
  SUBI_MEM_L : Nat -- L413
  SUBQ_DREG_BW : Nat -- L415
  SUBQ_AREG_BW : Nat -- L416
  SUBQ_REG_L : Nat -- L417
  SUBQ_MEM_BW : Nat -- L418
  SUBQ_MEM_L : Nat -- L419
  SUBX_REG_BW : Nat -- L421
  SUBX_REG_L : Nat -- L422
  SUBX_MEM_BW : Nat -- L423
  SUBX_MEM_L : Nat -- L424
  SWAP : Nat -- L426
  TAS_REG : Nat -- L428
  TAS_MEM : Nat -- L429
  TRAPV_NO_TRAP : Nat -- L432
  TST_REG_BW : Nat -- L434
  TST_REG_L : Nat -- L435
  TST_MEM_BW : Nat -- L436
  TST_MEM_L : Nat -- L437
  UNLK : Nat -- L439

/-- cpu_details/mc68000.rs L15-29: `vector_execution_time`. -/
def mc68000VectorExecutionTime (vector : U8) : Nat :=
  let v := vector.toNat
  if v = 2 then 50 else
  if v = 3 then 50 else
  if v = 4 then 34 else
  if v = 5 then 38 else
  if v = 6 then 40 else
  if v = 7 then 34 else
  if v = 8 then 34 else
  if v = 9 then 34 else
  if 24 ≤ v ∧ v ≤ 31 then 44 else
  if 32 ≤ v ∧ v ≤ 47 then 34 else
  40

/-- cpu_details/mc68000.rs L13-347. -/
def mc68000 : CpuDetails where
  STACK_FORMAT := .MC68000
  vectorExecutionTime := mc68000VectorExecutionTime
  VECTOR_RESET := 40 -- L14
  EA_ARI := 4 -- L31
  EA_ARIWPO := 4 -- L32
  EA_ARIWPR := 6 -- L33
  EA_ARIWD := 8 -- L34
  EA_ARIWI8 := 10 -- L35
  EA_ABSSHORT := 8 -- L36
  EA_ABSLONG := 12 -- L37
  EA_PCIWD := 8 -- L38
  EA_PCIWI8 := 10 -- L39
  EA_IMMEDIATE := 4 -- L40
  ABCD_REG := 6 -- L42
  ABCD_MEM := 18 -- L43
  ADD_REG_BW := 4 -- L45
  ADD_REG_L := 6 -- L46
  ADD_REG_L_RDIMM := 8 -- L47
  ADD_MEM_BW := 8 -- L48
  ADD_MEM_L := 12 -- L49
  ADDA_WORD := 8 -- L51
  ADDA_LONG := 6 -- L52
  ADDA_LONG_RDIMM := 8 -- L53
  ADDI_REG_BW := 8 -- L55
  ADDI_REG_L := 16 -- L56
  ADDI_MEM_BW := 12 -- L57
  ADDI_MEM_L := 20 -- L58
  ADDQ_REG_BW := 4 -- L60
  ADDQ_REG_L := 8 -- L61
  ADDQ_MEM_BW := 8 -- L62
  ADDQ_MEM_L := 12 -- L63
  ADDX_REG_BW := 4 -- L65
  ADDX_REG_L := 8 -- L66
  ADDX_MEM_BW := 18 -- L67
  ADDX_MEM_L := 30 -- L68
  AND_REG_BW := 4 -- L70
  AND_REG_L := 6 -- L71
  AND_REG_L_RDIMM := 8 -- L72
  AND_MEM_BW := 8 -- L73
  AND_MEM_L := 12 -- L74
  ANDI_REG_BW := 8 -- L76
  ANDI_REG_L := 14 -- L77
  ANDI_MEM_BW := 12 -- L78
  ANDI_MEM_L := 20 -- L79
  ANDICCR := 20 -- L81
  ANDISR := 20 -- L83
  ASM := 8 -- L85
  ASR_COUNT := 2 -- L87
  ASR_BW := 6 -- L88
  ASR_L := 8 -- L89
  BCC_BRANCH := 10 -- L91
  BCC_NO_BRANCH_BYTE := 8 -- L92
  BCC_NO_BRANCH_WORD := 12 -- L93
  BCHG_DYN_REG := 8 -- L95
  BCHG_DYN_MEM := 8 -- L96
  BCHG_STA_REG := 12 -- L97
  BCHG_STA_MEM := 12 -- L98
  BCLR_DYN_REG := 10 -- L100
  BCLR_DYN_MEM := 8 -- L101
  BCLR_STA_REG := 14 -- L102
  BCLR_STA_MEM := 12 -- L103
  BRA_BYTE := 10 -- L105
  BRA_WORD := 10 -- L106
  BSET_DYN_REG := 8 -- L108
  BSET_DYN_MEM := 8 -- L109
  BSET_STA_REG := 12 -- L110
  BSET_STA_MEM := 12 -- L111
  BSR_BYTE := 18 -- L113
  BSR_WORD := 18 -- L114
  BTST_DYN_REG := 6 -- L116
  BTST_DYN_MEM := 4 -- L117
  BTST_STA_REG := 10 -- L118
  BTST_STA_MEM := 8 -- L119
  CHK_NO_TRAP := 10 -- L121
  CLR_REG_BW := 4 -- L123
  CLR_REG_L := 6 -- L124
  CLR_MEM_BW := 8 -- L125
  CLR_MEM_L := 12 -- L126
  CMP_BW := 4 -- L128
  CMP_L := 6 -- L129
  CMPA := 6 -- L131
  CMPI_REG_BW := 8 -- L133
  CMPI_REG_L := 14 -- L134
  CMPI_MEM_BW := 8 -- L135
  CMPI_MEM_L := 12 -- L136
  CMPM_BW := 12 -- L138
  CMPM_L := 20 -- L139
  DBCC_TRUE := 12 -- L141
  DBCC_FALSE_BRANCH := 10 -- L142
  DBCC_FALSE_NO_BRANCH := 14 -- L143
  DIVS := 158 -- L145
  DIVU := 140 -- L146
  EOR_REG_BW := 4 -- L148
  EOR_REG_L := 8 -- L149
  EOR_MEM_BW := 8 -- L150
  EOR_MEM_L := 12 -- L151
  EORI_REG_BW := 8 -- L153
  EORI_REG_L := 16 -- L154
  EORI_MEM_BW := 12 -- L155
  EORI_MEM_L := 20 -- L156
  EORICCR := 20 -- L158
  EORISR := 20 -- L160
  EXG := 6 -- L162
  EXT := 4 -- L164
  JMP_ARI := 8 -- L166
  JMP_ARIWD := 10 -- L167
  JMP_ARIWI8 := 14 -- L168
  JMP_ABSSHORT := 10 -- L169
  JMP_ABSLONG := 12 -- L170
  JMP_PCIWD := 10 -- L171
  JMP_PCIWI8 := 14 -- L172
  JSR_ARI := 16 -- L174
  JSR_ARIWD := 18 -- L175
  JSR_ARIWI8 := 22 -- L176
  JSR_ABSSHORT := 18 -- L177
  JSR_ABSLONG := 20 -- L178
  JSR_PCIWD := 18 -- L179
  JSR_PCIWI8 := 22 -- L180
  LEA_ARI := 4 -- L182
  LEA_ARIWD := 8 -- L183
  LEA_ARIWI8 := 12 -- L184
  LEA_ABSSHORT := 8 -- L185
  LEA_ABSLONG := 12 -- L186
  LEA_PCIWD := 8 -- L187
  LEA_PCIWI8 := 12 -- L188
  LINK := 16 -- L190
  LSM := 8 -- L192
  LSR_COUNT := 2 -- L194
  LSR_BW := 6 -- L195
  LSR_L := 8 -- L196
  MOVE_DST_ARIWPR := 2 -- L198
  MOVE_OTHER := 4 -- L199
  MOVEA := 4 -- L201
  MOVECCR := 12 -- L203
  MOVEFSR_REG := 6 -- L205
  MOVEFSR_MEM := 8 -- L206
  MOVESR := 12 -- L208
  MOVEUSP := 4 -- L210
  MOVEM_WORD := 4 -- L212
  MOVEM_LONG := 8 -- L213
  MOVEM_MTR := 4 -- L214
  MOVEM_ARI := 8 -- L215
  MOVEM_ARIWPO := 8 -- L216
  MOVEM_ARIWPR := 8 -- L217
  MOVEM_ARIWD := 12 -- L218
  MOVEM_ARIWI8 := 14 -- L219
  MOVEM_ABSSHORT := 12 -- L220
  MOVEM_ABSLONG := 16 -- L221
  MOVEM_PCIWD := 12 -- L222
  MOVEM_PCIWI8 := 14 -- L223
  MOVEP_RTM_WORD := 16 -- L225
  MOVEP_RTM_LONG := 24 -- L226
  MOVEP_MTR_WORD := 16 -- L227
  MOVEP_MTR_LONG := 24 -- L228
  MOVEQ := 4 -- L230
  MULS := 70 -- L232
  MULU := 70 -- L234
  NBCD_REG := 6 -- L236
  NBCD_MEM := 8 -- L237
  NEG_REG_BW := 4 -- L239
  NEG_REG_L := 6 -- L240
  NEG_MEM_BW := 8 -- L241
  NEG_MEM_L := 12 -- L242
  NEGX_REG_BW := 4 -- L244
  NEGX_REG_L := 6 -- L245
  NEGX_MEM_BW := 8 -- L246
  NEGX_MEM_L := 12 -- L247
  NOP := 4 -- L249
  NOT_REG_BW := 4 -- L251
  NOT_REG_L := 6 -- L252
  NOT_MEM_BW := 8 -- L253
  NOT_MEM_L := 12 -- L254
  OR_REG_BW := 4 -- L256
  OR_REG_L := 6 -- L257
  OR_REG_L_RDIMM := 8 -- L258
  OR_MEM_BW := 8 -- L259
  OR_MEM_L := 12 -- L260
  ORI_REG_BW := 8 -- L262
  ORI_REG_L := 16 -- L263
  ORI_MEM_BW := 12 -- L264
  ORI_MEM_L := 20 -- L265
  ORICCR := 20 -- L267
  ORISR := 20 -- L269
  PEA_ARI := 12 -- L271
  PEA_ARIWD := 16 -- L272
  PEA_ARIWI8 := 20 -- L273
  PEA_ABSSHORT := 16 -- L274
  PEA_ABSLONG := 20 -- L275
  PEA_PCIWD := 16 -- L276
  PEA_PCIWI8 := 20 -- L277
  RESET := 132 -- L279
  ROM := 8 -- L281
  ROR_COUNT := 2 -- L283
  ROR_BW := 6 -- L284
  ROR_L := 8 -- L285
  ROXM := 8 -- L287
  ROXR_COUNT := 2 -- L289
  ROXR_BW := 6 -- L290
  ROXR_L := 8 -- L291
  RTE := 20 -- L293
  RTR := 20 -- L295
  RTS := 16 -- L297
  SBCD_REG := 6 -- L299
  SBCD_MEM := 18 -- L300
  SCC_REG_FALSE := 4 -- L302
  SCC_REG_TRUE := 6 -- L303
  SCC_MEM_FALSE := 8 -- L304
  SCC_MEM_TRUE := 8 -- L305
  STOP := 4 -- L307
  SUB_REG_BW := 4 -- L309
  SUB_REG_L := 6 -- L310
  SUB_REG_L_RDIMM := 8 -- L311
  SUB_MEM_BW := 8 -- L312
  SUB_MEM_L := 12 -- L313
  SUBA_WORD := 8 -- L315
  SUBA_LONG := 6 -- L316
  SUBA_LONG_RDIMM := 8 -- L317
  SUBI_REG_BW := 8 -- L319
  SUBI_REG_L := 16 -- L320
  SUBI_MEM_BW := 12 -- L321
  SUBI_MEM_L := 20 -- L322
  SUBQ_DREG_BW := 4 -- L324
  SUBQ_AREG_BW := 8 -- L325
  SUBQ_REG_L := 8 -- L326
  SUBQ_MEM_BW := 8 -- L327
  SUBQ_MEM_L := 12 -- L328
  SUBX_REG_BW := 4 -- L330
  SUBX_REG_L := 8 -- L331
  SUBX_MEM_BW := 18 -- L332
  SUBX_MEM_L := 30 -- L333
  SWAP := 4 -- L335
  TAS_REG := 4 -- L337
  TAS_MEM := 14 -- L338
  TRAPV_NO_TRAP := 4 -- L340
  TST_REG_BW := 4 -- L342
  TST_REG_L := 4 -- L343
  TST_MEM_BW := 4 -- L344
  TST_MEM_L := 4 -- L345
  UNLK := 12 -- L347

/-- cpu_details/scc68070.rs L15-29: `vector_execution_time`. -/
def scc68070VectorExecutionTime (vector : U8) : Nat :=
  let v := vector.toNat
  if v = 2 then 158 else
  if v = 3 then 158 else
  if v = 4 then 55 else
  if v = 5 then 64 else
  if v = 6 then 64 else
  if v = 7 then 55 else
  if v = 8 then 55 else
  if v = 9 then 55 else
  if 24 ≤ v ∧ v ≤ 31 then 65 else
  if 32 ≤ v ∧ v ≤ 47 then 52 else
  43

/-- cpu_details/scc68070.rs L13-348. -/
def scc68070 : CpuDetails where
  STACK_FORMAT := .SCC68070
  vectorExecutionTime := scc68070VectorExecutionTime
  VECTOR_RESET := 43 -- L14
  EA_ARI := 4 -- L31
  EA_ARIWPO := 4 -- L32
  EA_ARIWPR := 7 -- L33
  EA_ARIWD := 11 -- L34
  EA_ARIWI8 := 14 -- L35
  EA_ABSSHORT := 8 -- L36
  EA_ABSLONG := 12 -- L37
  EA_PCIWD := 11 -- L38
  EA_PCIWI8 := 14 -- L39
  EA_IMMEDIATE := 4 -- L40
  ABCD_REG := 10 -- L42
  ABCD_MEM := 31 -- L43
  ADD_REG_BW := 7 -- L45
  ADD_REG_L := 7 -- L46
  ADD_REG_L_RDIMM := 7 -- L47
  ADD_MEM_BW := 11 -- L48
  ADD_MEM_L := 15 -- L49
  ADDA_WORD := 7 -- L51
  ADDA_LONG := 7 -- L52
  ADDA_LONG_RDIMM := 7 -- L53
  ADDI_REG_BW := 14 -- L55
  ADDI_REG_L := 18 -- L56
  ADDI_MEM_BW := 18 -- L57
  ADDI_MEM_L := 26 -- L58
  ADDQ_REG_BW := 7 -- L60
  ADDQ_REG_L := 7 -- L61
  ADDQ_MEM_BW := 11 -- L62
  ADDQ_MEM_L := 15 -- L63
  ADDX_REG_BW := 7 -- L65
  ADDX_REG_L := 7 -- L66
  ADDX_MEM_BW := 28 -- L67
  ADDX_MEM_L := 40 -- L68
  AND_REG_BW := 7 -- L70
  AND_REG_L := 7 -- L71
  AND_REG_L_RDIMM := 7 -- L72
  AND_MEM_BW := 11 -- L73
  AND_MEM_L := 15 -- L74
  ANDI_REG_BW := 14 -- L76
  ANDI_REG_L := 18 -- L77
  ANDI_MEM_BW := 18 -- L78
  ANDI_MEM_L := 26 -- L79
  ANDICCR := 14 -- L81
  ANDISR := 14 -- L83
  ASM := 14 -- L85
  ASR_COUNT := 3 -- L87
  ASR_BW := 13 -- L88
  ASR_L := 13 -- L89
  BCC_BRANCH := 13 -- L91
  BCC_NO_BRANCH_BYTE := 14 -- L92
  BCC_NO_BRANCH_WORD := 14 -- L93
  BCHG_DYN_REG := 10 -- L95
  BCHG_DYN_MEM := 14 -- L96
  BCHG_STA_REG := 17 -- L97
  BCHG_STA_MEM := 21 -- L98
  BCLR_DYN_REG := 10 -- L100
  BCLR_DYN_MEM := 14 -- L101
  BCLR_STA_REG := 17 -- L102
  BCLR_STA_MEM := 21 -- L103
  BRA_BYTE := 13 -- L105
  BRA_WORD := 14 -- L106
  BSET_DYN_REG := 10 -- L108
  BSET_DYN_MEM := 14 -- L109
  BSET_STA_REG := 17 -- L110
  BSET_STA_MEM := 21 -- L111
  BSR_BYTE := 17 -- L113
  BSR_WORD := 22 -- L114
  BTST_DYN_REG := 7 -- L116
  BTST_DYN_MEM := 7 -- L117
  BTST_STA_REG := 14 -- L118
  BTST_STA_MEM := 14 -- L119
  CHK_NO_TRAP := 19 -- L121
  CLR_REG_BW := 7 -- L123
  CLR_REG_L := 7 -- L124
  CLR_MEM_BW := 7 -- L125
  CLR_MEM_L := 7 -- L126
  CMP_BW := 7 -- L128
  CMP_L := 7 -- L129
  CMPA := 7 -- L131
  CMPI_REG_BW := 14 -- L133
  CMPI_REG_L := 18 -- L134
  CMPI_MEM_BW := 14 -- L135
  CMPI_MEM_L := 18 -- L136
  CMPM_BW := 18 -- L138
  CMPM_L := 26 -- L139
  DBCC_TRUE := 14 -- L141
  DBCC_FALSE_BRANCH := 17 -- L142
  DBCC_FALSE_NO_BRANCH := 17 -- L143
  DIVS := 169 -- L145
  DIVU := 130 -- L147
  EOR_REG_BW := 7 -- L149
  EOR_REG_L := 7 -- L150
  EOR_MEM_BW := 11 -- L151
  EOR_MEM_L := 15 -- L152
  EORI_REG_BW := 14 -- L154
  EORI_REG_L := 18 -- L155
  EORI_MEM_BW := 18 -- L156
  EORI_MEM_L := 26 -- L157
  EORICCR := 14 -- L159
  EORISR := 14 -- L161
  EXG := 13 -- L163
  EXT := 7 -- L165
  JMP_ARI := 7 -- L167
  JMP_ARIWD := 14 -- L168
  JMP_ARIWI8 := 17 -- L169
  JMP_ABSSHORT := 14 -- L170
  JMP_ABSLONG := 18 -- L171
  JMP_PCIWD := 14 -- L172
  JMP_PCIWI8 := 17 -- L173
  JSR_ARI := 18 -- L175
  JSR_ARIWD := 25 -- L176
  JSR_ARIWI8 := 28 -- L177
  JSR_ABSSHORT := 25 -- L178
  JSR_ABSLONG := 29 -- L179
  JSR_PCIWD := 25 -- L180
  JSR_PCIWI8 := 28 -- L181
  LEA_ARI := 7 -- L183
  LEA_ARIWD := 14 -- L184
  LEA_ARIWI8 := 17 -- L185
  LEA_ABSSHORT := 14 -- L186
  LEA_ABSLONG := 18 -- L187
  LEA_PCIWD := 14 -- L188
  LEA_PCIWI8 := 17 -- L189
  LINK := 25 -- L191
  LSM := 14 -- L193
  LSR_COUNT := 3 -- L195
  LSR_BW := 13 -- L196
  LSR_L := 13 -- L197
  MOVE_DST_ARIWPR := 7 -- L199
  MOVE_OTHER := 7 -- L200
  MOVEA := 7 -- L202
  MOVECCR := 10 -- L204
  MOVEFSR_REG := 7 -- L206
  MOVEFSR_MEM := 11 -- L207
  MOVESR := 10 -- L209
  MOVEUSP := 7 -- L211
  MOVEM_WORD := 7 -- L213
  MOVEM_LONG := 11 -- L214
  MOVEM_MTR := 3 -- L215
  MOVEM_ARI := 23 -- L216
  MOVEM_ARIWPO := 23 -- L217
  MOVEM_ARIWPR := 23 -- L218
  MOVEM_ARIWD := 27 -- L219
  MOVEM_ARIWI8 := 30 -- L220
  MOVEM_ABSSHORT := 27 -- L221
  MOVEM_ABSLONG := 31 -- L222
  MOVEM_PCIWD := 27 -- L223
  MOVEM_PCIWI8 := 30 -- L224
  MOVEP_RTM_WORD := 25 -- L226
  MOVEP_RTM_LONG := 39 -- L227
  MOVEP_MTR_WORD := 22 -- L228
  MOVEP_MTR_LONG := 36 -- L229
  MOVEQ := 7 -- L231
  MULS := 76 -- L233
  MULU := 76 -- L235
  NBCD_REG := 10 -- L237
  NBCD_MEM := 14 -- L238
  NEG_REG_BW := 7 -- L240
  NEG_REG_L := 7 -- L241
  NEG_MEM_BW := 11 -- L242
  NEG_MEM_L := 15 -- L243
  NEGX_REG_BW := 7 -- L245
  NEGX_REG_L := 7 -- L246
  NEGX_MEM_BW := 11 -- L247
  NEGX_MEM_L := 15 -- L248
  NOP := 7 -- L250
  NOT_REG_BW := 7 -- L252
  NOT_REG_L := 7 -- L253
  NOT_MEM_BW := 11 -- L254
  NOT_MEM_L := 15 -- L255
  OR_REG_BW := 7 -- L257
  OR_REG_L := 7 -- L258
  OR_REG_L_RDIMM := 7 -- L259
  OR_MEM_BW := 11 -- L260
  OR_MEM_L := 15 -- L261
  ORI_REG_BW := 14 -- L263
  ORI_REG_L := 18 -- L264
  ORI_MEM_BW := 18 -- L265
  ORI_MEM_L := 26 -- L266
  ORICCR := 14 -- L268
  ORISR := 14 -- L270
  PEA_ARI := 18 -- L272
  PEA_ARIWD := 25 -- L273
  PEA_ARIWI8 := 28 -- L274
  PEA_ABSSHORT := 25 -- L275
  PEA_ABSLONG := 29 -- L276
  PEA_PCIWD := 25 -- L277
  PEA_PCIWI8 := 28 -- L278
  RESET := 154 -- L280
  ROM := 14 -- L282
  ROR_COUNT := 3 -- L284
  ROR_BW := 13 -- L285
  ROR_L := 13 -- L286
  ROXM := 14 -- L288
  ROXR_COUNT := 3 -- L290
  ROXR_BW := 13 -- L291
  ROXR_L := 13 -- L292
  RTE := 39 -- L294
  RTR := 22 -- L296
  RTS := 15 -- L298
  SBCD_REG := 10 -- L300
  SBCD_MEM := 31 -- L301
  SCC_REG_FALSE := 13 -- L303
  SCC_REG_TRUE := 13 -- L304
  SCC_MEM_FALSE := 17 -- L305
  SCC_MEM_TRUE := 14 -- L306
  STOP := 13 -- L308
  SUB_REG_BW := 7 -- L310
  SUB_REG_L := 7 -- L311
  SUB_REG_L_RDIMM := 7 -- L312
  SUB_MEM_BW := 11 -- L313
  SUB_MEM_L := 15 -- L314
  SUBA_WORD := 7 -- L316
  SUBA_LONG := 7 -- L317
  SUBA_LONG_RDIMM := 7 -- L318
  SUBI_REG_BW := 14 -- L320
  SUBI_REG_L := 18 -- L321
  SUBI_MEM_BW := 18 -- L322
  SUBI_MEM_L := 26 -- L323
  SUBQ_DREG_BW := 7 -- L325
  SUBQ_AREG_BW := 7 -- L326
  SUBQ_REG_L := 7 -- L327
  SUBQ_MEM_BW := 11 -- L328
  SUBQ_MEM_L := 15 -- L329
  SUBX_REG_BW := 7 -- L331
  SUBX_REG_L := 7 -- L332
  SUBX_MEM_BW := 28 -- L333
  SUBX_MEM_L := 40 -- L334
  SWAP := 7 -- L336
  TAS_REG := 10 -- L338
  TAS_MEM := 11 -- L339
  TRAPV_NO_TRAP := 10 -- L341
  TST_REG_BW := 7 -- L343
  TST_REG_L := 7 -- L344
  TST_MEM_BW := 7 -- L345
  TST_MEM_L := 7 -- L346
  UNLK := 15 -- L348

end M68k
