import sys, re
sys.path.insert(0,'/verif/tools')
from decs import decs, lean
exec(open('/verif/tools/thumb.py').read())
rows2 = rows
assert len(rows2)==len(decs)
def I(e): return "im ((%s : Nat) : Int)" % e
f=lambda c:"f '%s'"%c
def R(*cs): return ', '.join("rg (f '%s')"%c if not str(c).isdigit() else "rg %s"%c for c in cs)
def mem(t,*xs): return "memOps (f '%s') [%s]"%(t, ', '.join(xs))
r=lambda c: ".reg (f '%s') false"%c
def mi(e,h): return ".imm ((%s : Nat) : Int) %s"%(e,h)
exp="(expand (f 'i')).toNat"
OPS=dict(
 adc="[%s]"%R('d','m'), addImmT1="[%s, .one .immAttr]"%R('d','n'), addImmT2="[%s, .one .immAttr]"%R('d'),
 addRegT1="[%s]"%R('d','n','m'), addRegT2="[%s]"%R('d','m'), addSpPlusImmT1="[%s, %s]"%(R('d',13),I("4 * f 'i'")),
 addSpPlusRegT1="[%s]"%R('d',13,'d'), addSpPlusRegT2="[%s]"%R(13,'m'), addSpPlusImmT2="[%s, %s]"%(R(13),I("4 * f 'i'")),
 rsb="[%s, im 0]"%R('d','n'), rsbW="[%s, %s]"%(R('d','n'),I(exp)), mulT1="[%s]"%R('d','n','d'), mulT2="[%s]"%R('d','n','m'),
 adrT1="[%s, .one (.label ((4 * f 'i' : Nat) : Int))]"%R('d'), adrT2="[%s, .one (.label ((f 'i' : Nat) : Int))]"%R('d'),
 extend="[%s]"%R('d','m'), extend2="[%s] ++ (if f 'r' ≠ 0 then [.one (.shift .ror (8 * f 'r'))] else [])"%R('d','m'),
 rev="[%s]"%R('d','m'), revW="[%s]"%R('d','m'), mov0="[%s]"%R('d','m'), mov0S="[%s]"%R('d','m'), movRegT3="[%s]"%R('d','m'),
 mov1="[%s, %s]"%(R('d'),I("f 'i'")), mov2="[%s, %s]"%(R('d'),I(exp)),
 movw="[%s, %s]"%(R('d'),I("4096 * f 'i' + 2048 * f 'j' + 256 * f 'k' + f 'l'")), mvn="[%s]"%R('d','m'),
 mvnw="[%s, .one (.shift (immShift (f 't') (f 'i')).1 (immShift (f 't') (f 'i')).2)]"%R('d','m'),
 cmp1="[%s, %s]"%(R('n'),I("f 'i'")), cmp3="[%s]"%R('n','n'), cmp4="[%s, rg (f 'n' %% 8)]"%R('n'), cmp2="[%s, %s]"%(R('n'),I(exp)),
 tst="[%s]"%R('n','m'),
 tstW="[%s] ++ (if (immShift (f 't') (f 'i')).2 ≠ 0 then\n      [.one (.shift (immShift (f 't') (f 'i')).1 (immShift (f 't') (f 'i')).2)] else [])"%R('n','m'),
 bT1="[.one (.label (signed 9 (2 * f 'i')).toInt)]", bT2="[.one (.label (signed 12 (2 * f 'i')).toInt)]",
 blT1="[.one (.label (blOffset (f 's') (f 'j') (f 'k') (f 'i')).toInt)]",
 blxT1="[%s]"%R('m'), bxT1="[%s]"%R('m'),
 ldrStrReg=mem('t',r('n'),r('m')), ldrStrRegT2=mem('t',r('n'),r('m'),".shift .lsl (f 'i')"),
 ldrLiteral=mem('t',".reg 15 false",mi("4 * f 'i'","false")),
 ldrLiteralW=mem('t',".reg 15 false",".imm (if f 'u' = 1 then (f 'i' : Int) else -(f 'i' : Int)) true"),
 ldrStrImmT2=mem('t',".reg 13 false",mi("4 * f 'i'","true")),
 pushT1="[.one (.reglist (ofBV (regs 0 (f 'm') (f 'r'))))]", pushT2="[]", pushT3="[.one (.reglist (ofBV (single (f 't'))))]",
 popT1="[.one (.reglist (ofBV (regs (f 'p') 0 (f 'r'))))]", popT2="[.one (.reglist (ofBV (regs (f 'p') (f 'm') (f 'r'))))]",
 popT3="[.one (.reglist (ofBV (single (f 't'))))]",
 stmT2="multiOps (f 'n') (f 'w' = 1) (ofBV (regs 0 (f 'm') (f 'r')))",
 ldmT2="multiOps (f 'n') (f 'w' = 1) (ofBV (regs (f 'p') (f 'm') (f 'r')))",
 cps="[.one (.cps (f 'p' = 1) (f 'f' = 1))]", bkpt="[%s]"%I("f 'i'"),
 mrs="[%s, .one (.special (ofBV (BitVec.ofNat 8 (f 's'))) none)]"%R('d'),
 msr="[.one (.special (ofBV (BitVec.ofNat 8 (f 's'))) (some (ofBV (BitVec.ofNat 2 (f 'k'))))), %s]"%R('n'),
 nop="[]", barrier="[.one (.barrier (f 'o'))]", udfT1="[%s]"%I("f 'i'"), udfT2="[%s]"%I("4096 * f 'i' + f 'k'"))
U="if %s.ok f then none else some .unpredictable"
RAISES=dict(addSpPlusRegT2="if f 'm' = 13 then some .decodeError else none", rsbW=U, mulT2=U, revW=U, tstW=U,
 ldrStrRegT2="if f 'n' = 15 then some .decodeError else none", ldrLiteralW="if f 't' = 15 then some .decodeError else none",
 pushT1=U, pushT2="some .nameError", pushT3=U, popT1=U, popT2=U, stmLdmT1=U, stmT2=U,
 ldmT2="if f 'w' = 1 ∧ f 'n' = 13 then some .decodeError else if %s.ok f then none else some .unpredictable", cps=U, mrs=U, msr=U)
ACT=dict(cmp3=".cmp %s (f 'n') (.reg (f 'n'))", cmp4=".cmp true (f 'n') (.reg (f 'n' % 8))",
 bT1=".branch (f 'c') (C17.spoil (signed 9 (2 * f 'i')))", bT2=".branch 15 (C17.spoil (signed 12 (2 * f 'i')))",
 blT1=".bl (C17.spoil (blOffset (f 's') (f 'j') (f 'k') (f 'i')))")
def places(pat,c):
    order=list(range(15,-1,-1))+([16+k for k in range(15,-1,-1)] if len(pat)==32 else [])
    let=lambda k: pat[15-k if k<16 else 47-k]
    return [k for k in order if let(k)==c]
def runs(ps):
    out=[]
    for k in ps:
        if out and out[-1][0]==k+1 and (k+1)%16!=0: out[-1][0]=k; out[-1][1]+=1
        else: out.append([k,1])
    return out
cases=[]
for (name,pat,mn,act,ok),d in zip(rows2,decs):
    h=d[2]
    if h=='shiftImmT1':
        k="f 'i'" if name.startswith('lsl') else "if f 'i' = 0 then 32 else f 'i'"
        ops="[%s, %s]"%(R('d','m'),I(k))
    elif h=='ldrStrImm':
        m=dict(d[3]).get('memsize','32'); k={'32':'4 * ','16':'2 * ','8':''}[m]
        ops=mem('t',r('n'),mi(k+"f 'i'","true"))
    elif h=='stmLdmT1':
        wb='true' if name=='stm' else "(!(f 'r').testBit (f 'n'))"
        ops="multiOps (f 'n') %s (ofBV (regs 0 0 (f 'r')))"%wb
    else: ops=OPS[h]
    ra=RAISES.get(h)
    if ra and '%s' in ra: ra=ra%name
    a=ACT.get(h)
    if a and '%s' in a: a=a%('true' if name.startswith('cmp') else 'false')
    cases.append((name,pat,d,ops,ra,a))
if __name__=='__main__':
    for name,pat,d,ops,ra,a in cases:
        print("def %s : Case :=\n  { enc := Thumb.%s"%(name,name), end='')
        if a: print(",\n    act := fun f => %s"%a, end='')
        if ra: print(",\n    raises := fun f => %s"%ra.replace('if %s.ok'%name,'if Thumb.%s.ok'%name), end='')
        v='f' if "f '" in ops else '_'
        print(",\n    ops := fun %s => %s }\n"%(v,ops))
    import textwrap
    print("/-- All of them, in the order of the table. -/\ndef all : List Case := [")
    print(textwrap.fill(', '.join(c[0] for c in cases)+']',110,initial_indent='  ',subsequent_indent='  '))
