# Prints lean/Verif/Lemmas/Table.lean: mask, match and fields of every decoder, computed
# from the format strings by a regular expression, not by the parser of the model.
import re
from table import rows
def fmt(spec, base):
    mask = match = 0; fields = []; pos = 16
    for tok in re.findall(r'[A-Za-z][A-Za-z0-9]*\(\d+\)|[A-Za-z][A-Za-z0-9]*=[01]+|[A-Za-z][A-Za-z0-9]*|[01]', spec):
        if tok in '01':
            pos -= 1; mask |= 1 << pos; match |= int(tok) << pos
        elif '(' in tok:
            n, s = tok[:-1].split('('); pos -= int(s); fields.append((n, pos + base, int(s)))
        elif '=' in tok:
            n, v = tok.split('='); pos -= len(v)
            mask |= (1 << len(v)) - 1 << pos; match |= int(v, 2) << pos; fields.append((n, pos + base, len(v)))
        else:
            pos -= 1; fields.append((tok, pos + base, 1))
    assert pos == 0, spec
    return mask, match, fields[::-1]
decs = []
for ln, mn, kl, h, specs, kws in rows:
    mask, match, fs = fmt(specs[0], 0)
    if len(specs) > 1:
        m2, t2, f2 = fmt(specs[1], 16)
        mask |= m2 << 16; match |= t2 << 16; fs = fs + f2
    decs.append((mn, kl, h, kws, len(specs) > 1, mask, match, fs))
def lean(d):
    mn, kl, h, kws, w, mask, match, fs = d
    kw = '[' + ', '.join('.%s %s' % x for x in kws) + ']'
    f = '[' + ', '.join('⟨c! "%s", %d, %d⟩' % x for x in fs) + ']'
    return '⟨c! "%s", .%s, .%s, %s, %s, ⟨0x%x, 0x%x,\n    %s⟩⟩' % (mn, kl, h, kw, str(w).lower(), mask, match, f)
def lst(name, l, doc):
    return '/-- %s -/\ndef %s : List Dec := [\n  %s]\n' % (doc, name, ',\n  '.join(map(lean, l)))
def srt(l):
    return sorted(l, key=lambda d: bin(d[5]).count('1'), reverse=True)
if __name__ == '__main__':
    print('''import Verif.Table

/-!
# The decoder table, computed

Mask, match and fields of every encoding, checked by the kernel against the model's parser.
-/

namespace Verif
''')
    print(lst('decs', decs, 'The decoders in order of registration.'))
    print(lst('sorted16', srt([d for d in decs if not d[4]]), 'The 16-bit decoders, most fixed bits first.'))
    print(lst('sorted32', srt([d for d in decs if d[4]]), 'The 32-bit decoders, most fixed bits first.'))
    print('''set_option maxRecDepth 20000 in
/-- No format string is refused. -/
theorem compileAll_rows : compileAll rows = .ok decs := by decide +kernel

theorem decoders_eq : decoders = decs := by
  unfold decoders
  split
  · next h => rw [compileAll_rows] at h; injection h with h; exact h.symm
  · next h => rw [compileAll_rows] at h; cases h

set_option maxRecDepth 20000 in
theorem sort16 : sortDecs (decoders.filter fun d => !d.is32) = sorted16 := by
  rw [decoders_eq]; decide +kernel

set_option maxRecDepth 20000 in
theorem sort32 : sortDecs (decoders.filter fun d => d.is32) = sorted32 := by
  rw [decoders_eq]; decide +kernel

end Verif''')
