#!/usr/bin/env python3
"""Regenerate the generated sections of DESIGN.md: the functions that are modelled and those that are not (from the citations
in lean/Verif/Model), the violations (from the comments of the theorems with `_violated` in their name), and the axioms
of every property theorem (from `#print axioms`; the project must be built)."""
import re, os, glob, json, subprocess, sys
root = os.path.dirname(os.path.dirname(os.path.abspath(__file__)))
CITE = re.compile(r'((?:\w[\w.-]*/)*\w[\w-]*\.(?:cpp|h|c))(?::| )(?:lines )?(\d+)(?:[-–](\d+))?((?:,? ?(?:and )?\d+(?:[-–]\d+)?(?![\w^.]))*)')
cited = {}
for p in glob.glob(root + '/lean/Verif/Model/*.lean') + glob.glob(root + '/lean/Verif/*.lean'):
    for d in re.findall(r'/--(.*?)-/', open(p).read(), re.S):
        for c in CITE.finditer(d):
            rs = [(int(c.group(2)), int(c.group(3) or c.group(2)))]
            rs += [(int(a), int(b or a)) for a, b in re.findall(r'(\d+)(?:[-–](\d+))?', c.group(4) or '')]
            cited.setdefault(os.path.basename(c.group(1)), []).extend(rs)
KW = {'if', 'for', 'while', 'switch', 'return', 'sizeof', 'else', 'do', 'catch', 'defined'}
def functions(path):
    """(name, first line, last line) of the function definitions of a file, by a scan of the text."""
    src = open(path, errors='replace').read()
    blank = lambda m: re.sub(r'[^\n]', ' ', m.group(0))
    t = re.sub(r'/\*.*?\*/|//[^\n]*', blank, src, flags=re.S)
    t = re.sub(r'"(?:\\.|[^"\\\n])*"|\'(?:\\.|[^\'\\\n])+\'', blank, t)
    t = re.sub(r'^[ \t]*#(?:[^\n]*\\\n)*[^\n]*', blank, t, flags=re.M)
    out = []
    for m in re.finditer(r'^[A-Za-z_][\w \t*&:<>]*?\b([A-Za-z_]\w*)[ \t]*\(([^;{}]*?)\)\s*(?:const)?\s*\{', t, re.M):
        if m.group(1) in KW: continue
        i, depth = m.end(), 1
        while i < len(t) and depth:
            depth += {'{': 1, '}': -1}.get(t[i], 0); i += 1
        out.append((m.group(1), t[:m.start()].count('\n') + 1, t[:i].count('\n') + 1))
    return out
sec1 = ['| file | modelled, at least in part | not modelled |', '|------|------|------|']
nfun = nmod = 0
for d, lab in (('src-IL/src', ''), ('src-IL/include', ''), ('src-ILU/src', ''), ('src-ILUT/src', '')):
    whole = []
    for p in sorted(glob.glob('/repo/DevIL/' + d + '/*')):
        if not p.endswith(('.cpp', '.c', '.h')): continue
        b = os.path.basename(p); fs = functions(p)
        rs = cited.get(b, [])
        mod, non = [], []
        seen = set()
        for n, a, e in fs:
            if n in seen: continue
            seen.add(n)
            (mod if any(x <= e and y >= a for x, y in rs) else non).append(n)
        nfun += len(mod) + len(non); nmod += len(mod)
        if not mod:
            if non: whole.append(f'{b} ({len(non)})')
            continue
        sec1.append(f'| {b} | {", ".join(mod)} | {", ".join(non) or "—"} |')
    if whole: sec1.append(f'| {d}: other files (number of functions) | — | {", ".join(whole)} |')
sec1 = [f'Of {nfun} functions the scan finds, {nmod} are modelled at least in part.  "In part" means what the comment of the',
        'definition says: mostly the component types or branches that are left out, and floating-point arithmetic.', ''] + sec1
viol = []
for f in sorted(glob.glob(root + '/lean/Verif/Props/*.lean')):
    for m in re.finditer(r'/--((?:(?!-/).)*)-/\s*(?:set_option [^\n]* in\s*)?theorem (C\d\d\w*)', open(f).read(), re.S):
        if '_violated' in m.group(2) or 'hangs' in m.group(2):
            x = re.sub(r'\s+', ' ', m.group(1)).strip(); x = re.sub(r'^\*\*C\d+[^*]*\*\*\s*', '', x); x = re.sub(r'^(?:C\d\d \(violated\)\.|:)\s*', '', x)
            viol.append((m.group(2), x))
viol.sort()
sec2 = [f'* `{n}`: {d}' for n, d in viol]
thms = [t for c in json.load(open(root + '/MANIFEST.json'))['claims'] for t in c['theorems']]
mods = [l.split()[1] for l in open(root + '/lean/Verif.lean') if l.startswith('import')]
tmp = '/tmp/axioms.lean'
open(tmp, 'w').write('import Verif\n' + ''.join(f'#print axioms {t}\n' for t in thms))
o = subprocess.run(['lake', 'env', 'lean', tmp], cwd=root + '/lean', capture_output=True, text=True).stdout
ax = {}
for m in re.finditer(r"'([^']+)' (does not depend on any axioms|depends on axioms: \[([^\]]*)\])", o):
    k = ', '.join(sorted(x.strip() for x in (m.group(3) or '').split(','))) if m.group(3) else ''
    ax.setdefault(k, []).append(m.group(1).split('.')[-1])
if sum(map(len, ax.values())) != len(thms): print('axioms found for', sum(map(len, ax.values())), 'of', len(thms)); print(o[:2000])
sec3 = []
for k in sorted(ax, key=lambda k: -len(ax[k])):
    sec3.append(f'* {"`" + k + "`" if k else "no axioms"} ({len(ax[k])} theorems): {", ".join(ax[k])}')
p = root + '/DESIGN.md'
t = open(p).read()
def put(name, title, lines):
    global t
    a, b = f'<!-- generated: {name} -->', f'<!-- end: {name} -->'
    body = a + '\n\n' + '\n'.join(lines) + '\n\n' + b
    if a in t: t = t[:t.index(a)] + body + t[t.index(b) + len(b):]
    else: t = t.rstrip('\n') + f'\n\n## {title}\n\n' + body + '\n'
put('coverage', 'What is modelled and what is not', sec1)
put('violations', 'Where the code violates a property', sec2)
put('axioms', 'Axioms of the property theorems', sec3)
open(p, 'w').write(t)
print(nfun, nmod, len(viol), {k: len(v) for k, v in ax.items()})
