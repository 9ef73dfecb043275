# Prints lean/Verif/Table.lean from the decorators in instructions.py, read as text.
import ast, sys
src = open('/repo/cmdis/instructions.py').read()
tree = ast.parse(src)
names = ["adc","addImmT1","addImmT2","addRegT1","addRegT2","addSpPlusImmT1","addSpPlusRegT1","addSpPlusRegT2",
 "addSpPlusImmT2","shiftImmT1","rsb","rsbW","mulT1","mulT2","adrT1","adrT2","extend","extend2","rev","revW",
 "mov0","mov0S","movRegT3","mov1","mov2","movw","mvn","mvnw","cmp1","cmp3","cmp4","cmp2","tst","tstW",
 "bT1","bT2","blT1","blxT1","bxT1","ldrStrReg","ldrStrRegT2","ldrStrImm","ldrLiteral","ldrLiteralW","ldrStrImmT2",
 "pushT1","pushT2","pushT3","popT1","popT2","popT3","stmLdmT1","stmT2","ldmT2","cps","bkpt","mrs","msr","nop",
 "barrier","udfT1","udfT2"]
klass = dict(Instruction='instruction', Multiply='multiply')
KW = dict(use_carry='useCarry', sub='sub', op='op', type='type', add='add', width='width', signed='signed',
          negate='negate', memsize='memsize')
def kwval(v):
    if isinstance(v, ast.Constant):
        return {True: 'true', False: 'false'}[v.value] if isinstance(v.value, bool) else str(v.value)
    a = v.attr
    return {'and_': '.and', 'or_': '.or', 'xor': '.xor', 'SRType_LSL': '.lsl', 'SRType_LSR': '.lsr',
            'SRType_ASR': '.asr', 'SRType_ROR': '.ror'}[a]
defs = [f for f in tree.body if isinstance(f, ast.FunctionDef)]
assert len(defs) == len(names)
rows = []
for f, h in zip(defs, names):
    for dec in reversed(f.decorator_list):     # decorators are applied bottom-up
        assert dec.func.id == 'instr'
        mn, kl, *specs = dec.args
        kl = kl.id
        kl = kl[0].lower() + kl[1:]
        rows.append((dec.lineno, mn.value, kl, h, [s.value for s in specs],
                     [(KW[k.arg], kwval(k.value)) for k in dec.keywords]))
if __name__ == '__main__':
    if len(sys.argv) > 1:
        for f, h in zip(defs, names):
            print(h, f.lineno, f.end_lineno, [a.arg for a in f.args.args[1:]])
        sys.exit()
    print('''import Verif.Decoder

/-!
# The encodings of `cmdis/instructions.py`

Every `@instr` decorator as a row, in the order of registration: from the top of the file,
and within a stack of decorators from the bottom. The comment is the line of the decorator.
-/

namespace Verif

/-- The calls of `instr`. -/
def rows : List Row := [''')
    for k, (ln, mn, kl, h, specs, kws) in enumerate(rows):
        s2 = 'none' if len(specs) < 2 else 'some (c! "%s")' % specs[1]
        kw = '[' + ', '.join('.%s %s' % x for x in kws) + ']'
        end = ',' if k + 1 < len(rows) else ']'
        print('  -- %d' % ln)
        print('  ⟨c! "%s", .%s, .%s, c! "%s", %s, %s⟩%s' % (mn, kl, h, specs[0], s2, kw, end))
    print('''
/-- The decoders registered by importing `instructions.py`. `decoders_eq` in
`Verif/Lemmas/Table.lean` shows that no format string is refused. -/
def decoders : List Dec :=
  match compileAll rows with
  | .ok l => l
  | .error _ => []

/-- `DECODER_TREE` after `build()`, `decoder.py` 193 and `disasm.py` 20-21. -/
def trees : Trees := buildTrees decoders

end Verif''')
