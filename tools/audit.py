#!/usr/bin/env python3
"""Write AXIOMS.md (axioms of every theorem in MANIFEST.json) and COVERAGE.md (which lines of which source files are modelled).
Usage: tools/audit.py [source tree, default /repo]; needs a finished `lake build`."""
import re, json, glob, os, subprocess, sys, tempfile, collections
root = os.path.dirname(os.path.dirname(os.path.abspath(__file__)))
src = sys.argv[1] if len(sys.argv) > 1 else '/repo'
claims = json.load(open(root + '/MANIFEST.json'))['claims']
names = [t for c in claims for t in c['theorems']]
with tempfile.NamedTemporaryFile('w', suffix='.lean', delete=False) as f:
    f.write('import Verif\n' + ''.join(f'#print axioms {n}\n' for n in names))
out = subprocess.run(['lake', 'env', 'lean', f.name], cwd=root + '/lean', capture_output=True, text=True).stdout
os.unlink(f.name)
ax = {}
for m in re.finditer(r"'([^']+)' (?:depends on axioms: \[([^\]]*)\]|does not depend on any axioms)", out):
    ax[m[1]] = tuple(sorted(x.strip() for x in (m[2] or '').split(',') if x.strip()))
groups = collections.defaultdict(list)
for n in names: groups[ax.get(n, ('not found',))].append(n)
with open(root + '/AXIOMS.md', 'w') as f:
    f.write('# Axioms of the theorems in MANIFEST.json\n\nMade by `tools/audit.py` from `#print axioms`.\n')
    for g in sorted(groups, key=lambda g: (len(g), g)):
        f.write(f'\n## {", ".join("`%s`" % a for a in g) or "No axioms"} ({len(groups[g])} theorems)\n\n')
        f.write(''.join(f'* `{n}`\n' for n in groups[g]))
cited = collections.defaultdict(set)
files = {os.path.relpath(p, src): p for e in ('hpp', 'cpp', 'inc', 'cu', 'h') for p in glob.glob(src + '/**/*.' + e, recursive=True)}
short = collections.defaultdict(list)
for p in files: short[os.path.basename(p)].append(p)
for f in sorted(glob.glob(root + '/lean/Verif/**/*.lean', recursive=True)):
    text = open(f).read()
    for m in re.finditer(r'([\w/.\-]+\.(?:hpp|cpp|inc|cu|h))((?::|,? )\s*\d+(?:\s*[-–]\s*\d+)?(?:(?:,| and| and,)\s*\d+(?:\s*[-–]\s*\d+)?)*)', text):
        p = m[1] if m[1] in files else (short[os.path.basename(m[1])] + [None])[0]
        if p is None: continue
        for a, b in re.findall(r'(\d+)(?:\s*[-–]\s*(\d+))?', m[2]): cited[p].update(range(int(a), int(b or a) + 1))
def runs(s):
    s = sorted(s); r = []
    for x in s:
        if r and x <= r[-1][1] + 3: r[-1][1] = x
        else: r.append([x, x])
    return ', '.join(f'{a}–{b}' if b > a else f'{a}' for a, b in r)
with open(root + '/COVERAGE.md', 'w') as f:
    f.write('# Source lines cited by the model\n\nMade by `tools/audit.py` from the citations in `lean/Verif`. Runs less than four lines apart are joined.\n'
            'What is simplified is said beside each definition; printing and bindings are nowhere modelled; GPU code only where a model says so.\n\n')
    for p in sorted(cited): f.write(f'* `{p}`: {runs(cited[p])}\n')
    f.write('\n## Files without any citation\n\n')
    rest = collections.defaultdict(list)
    for p in sorted(files):
        if p not in cited: rest[os.path.dirname(p)].append(os.path.basename(p))
    for d in sorted(rest): f.write(f'* `{d}/`: {", ".join(rest[d])}\n')
print({', '.join(g) or 'none': len(v) for g, v in groups.items()}, len(cited), 'files cited of', len(files))
