# name, pattern, mnemonic expr, act expr, ok expr
rows = []
def R(name, pat, mnem, act, ok=None): rows.append((name, pat.replace(' ',''), mnem, act, ok))
def s(m): return 'fun _ => c! "%s"' % m
# registration order
R('bics','0100001110mmmddd',s('bics'),".bic true (f 'd') (f 'd') (f 'm')")
R('orrs','0100001100mmmddd',s('orrs'),".logic .or true (f 'd') (f 'd') (f 'm')")
R('rorsReg','0100000111mmmddd',s('rors'),".shiftReg .ror true (f 'd') (f 'd') (f 'm')")
R('sbcs','0100000110mmmddd',s('sbcs'),".addSub true true true (f 'd') (f 'd') (.reg (f 'm'))")
R('adcs','0100000101mmmddd',s('adcs'),".addSub false true true (f 'd') (f 'd') (.reg (f 'm'))")
R('asrsReg','0100000100mmmddd',s('asrs'),".shiftReg .asr true (f 'd') (f 'd') (f 'm')")
R('lsrsReg','0100000011mmmddd',s('lsrs'),".shiftReg .lsr true (f 'd') (f 'd') (f 'm')")
R('lslsReg','0100000010mmmddd',s('lsls'),".shiftReg .lsl true (f 'd') (f 'd') (f 'm')")
R('eors','0100000001mmmddd',s('eors'),".logic .xor true (f 'd') (f 'd') (f 'm')")
R('ands','0100000000mmmddd',s('ands'),".logic .and true (f 'd') (f 'd') (f 'm')")
R('subsImmT1','0001111iiinnnddd',s('subs'),".addSub true false true (f 'd') (f 'n') (.imm (f 'i'))")
R('addsImmT1','0001110iiinnnddd',s('adds'),".addSub false false true (f 'd') (f 'n') (.imm (f 'i'))")
R('subsImmT2','00111dddiiiiiiii',s('subs'),".addSub true false true (f 'd') (f 'd') (.imm (f 'i'))")
R('addsImmT2','00110dddiiiiiiii',s('adds'),".addSub false false true (f 'd') (f 'd') (.imm (f 'i'))")
R('subsReg','0001101mmmnnnddd',s('subs'),".addSub true false true (f 'd') (f 'n') (.reg (f 'm'))")
R('addsReg','0001100mmmnnnddd',s('adds'),".addSub false false true (f 'd') (f 'n') (.reg (f 'm'))")
R('addRegT2','01000100dmmmmddd',s('add'),".addSub false false false (f 'd') (f 'd') (.reg (f 'm'))","f 'd' ≠ 13 ∧ f 'm' ≠ 13")
R('addSpImmT1','10101dddiiiiiiii',s('add'),".addSub false false false (f 'd') 13 (.imm (4 * f 'i'))")
R('addSpRegT1','01000100d1101ddd',s('add'),".addSub false false false (f 'd') 13 (.reg (f 'd'))")
R('addSpRegT2','010001001mmmm101',s('add'),".addSub false false false 13 13 (.reg (f 'm'))","f 'm' ≠ 13")
R('subSpImm','101100001iiiiiii',s('sub'),".addSub true false false 13 13 (.imm (4 * f 'i'))")
R('addSpImmT2','101100000iiiiiii',s('add'),".addSub false false false 13 13 (.imm (4 * f 'i'))")
R('asrsImm','00010iiiiimmmddd',s('asrs'),".shiftImm .asr true (f 'd') (f 'm') (if f 'i' = 0 then 32 else f 'i')")
R('lsrsImm','00001iiiiimmmddd',s('lsrs'),".shiftImm .lsr true (f 'd') (f 'm') (if f 'i' = 0 then 32 else f 'i')")
R('lslsImm','00000iiiiimmmddd',s('lsls'),".shiftImm .lsl true (f 'd') (f 'm') (f 'i')","f 'i' ≠ 0")
R('rsbs','0100001001nnnddd',s('rsbs'),".rsb true (f 'd') (f 'n') 0")
R('rsbW','11110i01110snnnn 0iiiddddiiiiiiii',"fun f => c! \"rsb\" ++ dotW (f 's')",".rsb (f 's' = 1) (f 'd') (f 'n') (expand (f 'i'))","plainReg (f 'd') ∧ plainReg (f 'n')")
R('muls','0100001101nnnddd',s('muls'),".mul true (f 'd') (f 'n') (f 'd')")
R('mulW','111110110000nnnn 1111dddd0000mmmm',s('mul'),".mul false (f 'd') (f 'n') (f 'm')","plainReg (f 'd') ∧ plainReg (f 'n') ∧ plainReg (f 'm')")
R('adrT1','10100dddiiiiiiii',s('adr'),".adr true (f 'd') (4 * f 'i')")
R('adrAddW','11110i1000001111 0iiiddddiiiiiiii',s('adr.w'),".adr true (f 'd') (f 'i')")
R('adrSubW','11110i1010101111 0iiiddddiiiiiiii',s('adr.w'),".adr false (f 'd') (f 'i')")
for nm,op,sg,w in (('uxtb','11','false',8),('uxth','10','false',16),('sxtb','01','true',8),('sxth','00','true',16)):
    R(nm,'10110010%smmmddd'%op,s(nm),".extend %s %d 0 (f 'd') (f 'm')"%(sg,w))
for nm,op,sg,w in (('uxtb','101','false',8),('uxth','001','false',16),('sxtb','100','true',8),('sxth','000','true',16)):
    R(nm+'W','111110100%s1111 1111dddd10rrmmmm'%op,s(nm+'.w'),".extend %s %d (8 * f 'r') (f 'd') (f 'm')"%(sg,w))
for nm,op in (('revsh','11'),('rev16','01'),('rev','00')):
    R(nm,'10111010%smmmddd'%op,s(nm),".rev .%s (f 'd') (f 'm')"%nm)
for nm,op in (('revsh','11'),('rev16','01'),('rev','00')):
    R(nm+'W','111110101001mmmm 1111dddd10%skkkk'%op,s(nm+'.w'),".rev .%s (f 'd') (f 'm')"%nm,"f 'm' = f 'k'")
R('movReg','01000110dmmmmddd',s('mov'),".mov false false (f 'd') (.reg (f 'm'))")
R('movsReg','0000000000mmmddd',s('movs'),".mov false true (f 'd') (.reg (f 'm'))")
R('movRegW','11101010010s1111 0000dddd0000mmmm',"fun f => c! \"mov\" ++ dotW (f 's')",".mov false (f 's' = 1) (f 'd') (.reg (f 'm'))")
R('movsImm','00100dddiiiiiiii',s('movs'),".mov false true (f 'd') (.imm (f 'i'))")
R('movImmW','11110i00010s1111 0iiiddddiiiiiiii',"fun f => c! \"mov\" ++ dotW (f 's')",".mov false (f 's' = 1) (f 'd') (.imm (expand (f 'i')))")
R('movw','11110j100100iiii 0kkkddddllllllll',s('movw'),".mov false false (f 'd') (.imm (4096 * f 'i' + 2048 * f 'j' + 256 * f 'k' + f 'l'))")
R('mvns','0100001111mmmddd',s('mvns'),".mov true true (f 'd') (.reg (f 'm'))")
R('mvnW','11101010011s1111 0iiiddddiittmmmm',"fun f => c! \"mvn\" ++ dotW (f 's')",".mvnShift (f 's' = 1) (f 'd') (f 'm') (immShift (f 't') (f 'i'))")
R('cmpImm','00101nnniiiiiiii',s('cmp'),".cmp true (f 'n') (.imm (f 'i'))")
R('cmnReg','0100001011mmmnnn',s('cmn'),".cmp false (f 'n') (.reg (f 'm'))")
R('cmpRegT1','0100001010mmmnnn',s('cmp'),".cmp true (f 'n') (.reg (f 'm'))")
R('cmpRegT2','01000101nmmmmnnn',s('cmp'),".cmp true (f 'n') (.reg (f 'm'))")
R('cmnImm','11110i010001nnnn 0iii1111iiiiiiii',s('cmn'),".cmp false (f 'n') (.imm (expand (f 'i')))")
R('cmpImmW','11110i011011nnnn 0iii1111iiiiiiii',s('cmp.w'),".cmp true (f 'n') (.imm (expand (f 'i')))")
R('tst','0100001000mmmnnn',s('tst'),".tst (f 'n') (f 'm') (.none, 0)")
R('tstW','111010100001nnnn 0iii1111iittmmmm',s('tst.w'),".tst (f 'n') (f 'm') (immShift (f 't') (f 'i'))","plainReg (f 'n') ∧ plainReg (f 'm')")
R('bCond','1101cccciiiiiiii',"fun f => 'b' :: condText (f 'c')",".branch (f 'c') (signed 9 (2 * f 'i'))","f 'c' < 14")
R('b','11100iiiiiiiiiii',s('b'),".branch 15 (signed 12 (2 * f 'i'))")
R('bl','11110siiiiiiiiii 11j1kiiiiiiiiiii',s('bl'),".bl (blOffset (f 's') (f 'j') (f 'k') (f 'i'))")
R('blx','010001111mmmm000',s('blx'),".blx (f 'm')")
R('bx','010001110mmmm000',s('bx'),".bx (f 'm')")
L=(('ldrsh','load','16 true','111'),('ldrb','load','8 false','110'),('ldrh','load','16 false','101'),('ldr','load','32 false','100'),('ldrsb','load','8 true','011'),('strb','store','8','010'),('strh','store','16','001'),('str','store','32','000'))
for nm,k,a,op in L:
    R(nm+'Reg','0101%smmmnnnttt'%op,s(nm),".%s %s (f 't') (f 'n') (.reg (f 'm') (.none, 0))"%(k,a))
LW=(('str','store','32','000010','0'),('strh','store','16','000001','0'),('strb','store','8','000000','0'),('ldrsh','load','16 true','001001','1'),('ldrsb','load','8 true','001000','1'),('ldr','load','32 false','000010','1'),('ldrh','load','16 false','000001','1'),('ldrb','load','8 false','000000','1'))
for nm,k,a,op,l in LW:
    # 11111 00 s 0 sz l
    R(nm+'RegW','11111%s%snnnn tttt000000iimmmm'%(op,l),s(nm+'.w'),".%s %s (f 't') (f 'n') (.reg (f 'm') (.lsl, f 'i'))"%(k,a),"f 'n' ≠ 15")
for nm,k,a,op,sc in (('ldrh','load','16 false','10001','2 * '),('strh','store','16','10000','2 * '),('ldrb','load','8 false','01111',''),('strb','store','8','01110',''),('ldr','load','32 false','01101','4 * '),('str','store','32','01100','4 * ')):
    im="%sf 'i'"%sc
    R(nm+'Imm','%siiiiinnnttt'%op,s(nm),".%s %s (f 't') (f 'n') (.imm (%s))"%(k,a,im))
R('ldrLit','01001tttiiiiiiii',s('ldr'),".loadLit 32 false true (f 't') (4 * f 'i')")
for nm,a,op in (('ldrsb','8 true','001u001'),('ldrsh','16 true','001u011'),('ldrb','8 false','000u001'),('ldrh','16 false','000u011'),('ldr','32 false','000u101')):
    R(nm+'LitW','11111%s1111 ttttiiiiiiiiiiii'%op,s(nm+'.w'),".loadLit %s (f 'u' = 1) (f 't') (f 'i')"%a,"f 't' ≠ 15" + (" ∧ ¬ (TT)" if 0 else ""))
R('ldrSp','10011tttiiiiiiii',s('ldr'),".load 32 false (f 't') 13 (.imm (4 * f 'i'))")
R('strSp','10010tttiiiiiiii',s('str'),".store 32 (f 't') 13 (.imm (4 * f 'i'))")
R('push','1011010mrrrrrrrr',s('push'),".push (regs 0 (f 'm') (f 'r'))","f 'm' ≠ 0 ∨ f 'r' ≠ 0")
R('pushW','1110100100101101 0m0rrrrrrrrrrrrr',s('push.w'),".push (regs 0 (f 'm') (f 'r'))")
R('pushOne','1111100001001101 tttt110100000100',s('push.w'),".push (single (f 't'))","plainReg (f 't')")
R('pop','1011110prrrrrrrr',s('pop'),".pop (regs (f 'p') 0 (f 'r'))","f 'p' ≠ 0 ∨ f 'r' ≠ 0")
R('popW','1110100010111101 pm0rrrrrrrrrrrrr',s('pop.w'),".pop (regs (f 'p') (f 'm') (f 'r'))","2 ≤ count (regs (f 'p') (f 'm') (f 'r')) ∧ ¬ (f 'p' = 1 ∧ f 'm' = 1)")
R('popOne','1111100001011101 tttt101100000100',s('pop.w'),".pop (single (f 't'))")
R('ldm','11001nnnrrrrrrrr',s('ldm'),".ldm (f 'n') (!(f 'r').testBit (f 'n')) (regs 0 0 (f 'r'))","f 'r' ≠ 0")
R('stm','11000nnnrrrrrrrr',s('stm'),".stm (f 'n') true (regs 0 0 (f 'r'))","f 'r' ≠ 0")
R('stmW','1110100010w0nnnn 0m0rrrrrrrrrrrrr',s('stm.w'),".stm (f 'n') (f 'w' = 1) (regs 0 (f 'm') (f 'r'))","f 'n' ≠ 15 ∧ 2 ≤ count (regs 0 (f 'm') (f 'r')) ∧ ¬ (f 'w' = 1 ∧ (regs 0 (f 'm') (f 'r')).getLsbD (f 'n') = true)")
R('ldmW','1110100010w1nnnn pm0rrrrrrrrrrrrr',s('ldm.w'),".ldm (f 'n') (f 'w' = 1) (regs (f 'p') (f 'm') (f 'r'))","¬ (f 'w' = 1 ∧ f 'n' = 13) ∧ f 'n' ≠ 15 ∧ 2 ≤ count (regs (f 'p') (f 'm') (f 'r')) ∧ ¬ (f 'p' = 1 ∧ f 'm' = 1) ∧\n      ¬ (f 'w' = 1 ∧ (regs (f 'p') (f 'm') (f 'r')).getLsbD (f 'n') = true)")
R('cps','10110110011e00pf',"fun f => c! \"cps\" ++ (if f 'e' = 0 then c! \"ie\" else c! \"id\")",".cps (f 'e' = 0) (f 'p' = 1) (f 'f' = 1)","f 'p' ≠ 0 ∨ f 'f' ≠ 0")
R('bkpt','10111110iiiiiiii',s('bkpt'),".plain")
R('mrs','1111001111101111 1000ddddssssssss',s('mrs'),".mrs (f 'd') (f 's')","plainReg (f 'd') ∧ special (f 's')")
R('msr','111100111000nnnn 1000kk00ssssssss',s('msr'),".msr (f 'n') (f 'k') (f 's')","plainReg (f 'n') ∧ special (f 's') ∧ f 'k' ≠ 0 ∧ (f 'k' = 2 ∨ f 's' < 4)")
for nm,h in (('sev','0100'),('wfi','0011'),('wfe','0010'),('yield','0001'),('nop','0000')):
    R(nm,'10111111%s0000'%h,s(nm),".plain")
for nm,h in (('isb','0110'),('dmb','0101'),('dsb','0100')):
    R(nm,'1111001110111111 10001111%soooo'%h,s(nm),".plain")
R('svc','11011111iiiiiiii',s('svc'),".plain")
R('udf','11011110iiiiiiii',s('udf'),".plain")
R('udfW','111101111111iiii 1010kkkkkkkkkkkk',s('udf.w'),".plain")
