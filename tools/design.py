"""Write DESIGN.md: design_head.md, then the table of properties with plan, status and axioms."""
import json, os, re, subprocess
T = os.path.dirname(os.path.abspath(__file__)); V = os.path.dirname(T)
plan = json.load(open(T + '/plan.json'))
man = {c['property']: c for c in json.load(open(V + '/MANIFEST.json'))['claims']}
names = [t for c in man.values() for t in c['theorems']]
os.makedirs('/tmp/w', exist_ok=True)
open('/tmp/w/ax.lean', 'w').write('import Verif\n' + '\n'.join(f'#print axioms {n}' for n in names))
out = subprocess.run(['lake', 'env', 'lean', '/tmp/w/ax.lean'], cwd=V + '/lean', capture_output=True, text=True).stdout
ax = {}
for m in re.finditer(r"'(\S+)' (?:depends on axioms: \[([^\]]*)\]|does not depend on any axioms)", out):
    ax[m.group(1)] = set(x.strip() for x in (m.group(2) or '').split(',') if x.strip())
missing = [n for n in names if n not in ax]
assert not missing, missing[:5]
short = {'propext': 'p', 'Classical.choice': 'c', 'Quot.sound': 'q'}
s = open(T + '/design_head.md').read()
s += '## Properties\n\n'
s += 'Axioms: p = `propext`, c = `Classical.choice`, q = `Quot.sound`; the union over the theorems of the\nproperty. Notes on what is missing from partial ones are in `MANIFEST.json`.\n\n'
s += '| | Title | Modelled in | How it is proved | Status | Theorems | Axioms |\n| --- | --- | --- | --- | --- | --- | --- |\n'
groups = {}
for l in open(V + '/properties.jsonl'):
    d = json.loads(l); i = d['id']; c = man.get(i)
    mods, how = plan[i]
    a = set().union(*[ax[t] for t in c['theorems']]) if c else set()
    assert a <= set(short), a
    t = ' '.join(short[x] for x in short if x in a) or 'none'
    s += f"| {i} | {d['title']} | `{mods}` | {how} | {c['status'] if c else 'open'} | {len(c['theorems']) if c else 0} | {t if c else ''} |\n"
s += '\n## Axioms of each theorem\n\n'
groups = {}
for n in names: groups.setdefault(tuple(x for x in short if x in ax[n]), []).append(n)
for g in sorted(groups, key=len):
    s += (', '.join(f'`{x}`' for x in g) or 'No axioms') + f' ({len(set(groups[g]))} theorems):\n'
    s += ', '.join(f'`{n[6:]}`' for n in dict.fromkeys(groups[g])) + '.\n\n'
log = [json.loads(l) for l in open(V + '/seeded/LOG.jsonl') if l.strip()]
killed = [x for x in log if x.get('survived') is False and x['failed']]
surv = [x for x in log if x.get('survived')]
s += f'## Wrong programs\n\n{len(log)} attempts with edits of the model (`seeded/LOG.jsonl`): {len(killed)} made at least one theorem fail, {len(surv)} did not, {len(log)-len(killed)-len(surv)} ended undecided by the time limit.\n'
open(V + '/DESIGN.md', 'w').write(s)
print(len(names), 'theorems', {g: len(v) for g, v in groups.items()})
