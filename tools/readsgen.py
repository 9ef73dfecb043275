"""Writes the part of Lemmas/Written.lean that goes through the encodings one by one."""
import re, sys
src = open('/verif/lean/Verif/Cases.lean').read()
cases = re.findall(r'def (\w+) : Case :=\n((?:  .*\n)+)', src)
order = re.search(r'def all : List Case := \[(.*?)\]', src, re.S).group(1).replace('\n', ' ').split(',')
order = [x.strip() for x in order]
bodies = dict(cases)
out = []
for name in order:
    b = bodies[name]
    ops = b[b.index('ops :='):]
    special = {
        'pushW': 'fun w a h => by cases h',
        'cmpRegT1': None, 'cmnReg': None, 'cmpRegT2': None, 'adrT1': None, 'adrAddW': None, 'adrSubW': None, 'msr': None,
    }
    if name in special:
        if special[name]:
            out.append(f'theorem {name} : Case.{name}.Reads := {special[name]}\n')
        continue
    bound = 'Wr.bound2 (by decide) (by decide)' if re.search(r'\d \* f', ops) else 'Wr.bound1 (by decide)'
    three = ops.count('rg') == 2
    if 'immAttr' in ops or re.search(r'rg 13, im', ops):
        two = '.one .immAttr' in ops and ops.count('rg') == 1 or 'rg 13, im' in ops and ops.count('rg') == 1
        t = f'Wr.{"two" if two else "three"}_num ({bound})'
        if 'immAttr' in ops:
            t = '.inr ⟨rfl, rfl⟩' if two else '.inl rfl'
    elif 'memOps' in ops and 'u' in re.findall(r"f '(\w)'", ops):
        t = f'Wr.lit ({bound})'
    elif 'memOps' in ops and re.search(r'\.imm .* false\]', ops):
        t = f'.inl (Wr.lit_shown ({bound}))'
    elif 'memOps' in ops and '.imm' in ops:
        t = f'Wr.off_imm ({bound})'
    elif 'memOps' in ops and '.shift' in ops:
        t = '⟨_, .inl rfl, rfl⟩'
    elif 'memOps' in ops:
        t = '⟨_, .inr ⟨rfl, rfl⟩, rfl⟩'
    elif "f 'r' ≠ 0" in ops:
        t = 'Wr.extended'
    elif name == 'tstW':
        t = 'Wr.tested'
    elif name in ('tst', 'uxtb', 'uxth', 'sxtb', 'sxth'):
        t = '.inr ⟨rfl, rfl⟩'
    elif name == 'mvnW':
        t = '.inl rfl'
    elif name == 'movw':
        t = 'Wr.pair_num (Wr.movw_bound (by decide) (by decide) (by decide) (by decide))'
    elif name in ('movsImm', 'cmpImm'):
        t = f'Wr.pair_num ({bound})'
    elif 'multiOps' in ops:
        t = 'Wr.multi_items _ _ _'
    elif 'reglist' in ops:
        t = 'Wr.list_items _'
    elif name == 'mrs':
        t = 'Wr.mrs_items _ _'
    elif name in ('rsbs', 'rsbW', 'muls', 'mulW', 'subsReg', 'addsReg', 'addSpRegT1'):
        t = '.inl rfl'
    elif name in ('bics orrs rorsReg sbcs adcs asrsReg lsrsReg lslsReg eors ands addRegT2 addSpRegT2').split():
        t = '.inr ⟨rfl, rfl⟩'
    elif name in ('isb', 'dmb', 'dsb'):
        t = 'Wr.barrier _'
    elif name in 'bkpt svc udf udfW sev wfi wfe yield nop'.split():
        t = 'by rfl'
    else:
        t = 'rfl'
    out.append(f'theorem {name} : Case.{name}.Reads := reads_of (by decide) fun w a => {t}\n')
print('\n'.join(out))
print('end Reads')
print()
print('theorem reads_all : ∀ c ∈ Case.all, c.Reads := by')
print('  simp only [Case.all, List.forall_mem_cons]')
print('  exact ⟨' + ', '.join('Reads.' + n for n in order) + ', fun x h => nomatch h⟩')
