#!/usr/bin/env python3
"""Check the citations of the model: every definition under lean/Verif/Model has a comment that cites a file and lines of
/repo (or says it belongs to the definition before it), the lines exist, and a name in backquotes that starts the comment
occurs in them."""
import re, os, glob, sys
files = {}
for r, _, fs in os.walk('/repo/DevIL'):
    for f in fs:
        if f.endswith(('.cpp', '.h', '.c', '.i')): files.setdefault(f, []).append(os.path.join(r, f))
bad = 0; nodoc = 0; ok = 0
CITE = re.compile(r'((?:\w[\w.-]*/)*\w[\w-]*\.(?:cpp|h|c))(?::| )(?:lines )?(\d+)(?:[-–](\d+))?((?:, ?\d+(?:[-–]\d+)?)*)')
def lines(f):
    b = os.path.basename(f)
    c = [p for p in files.get(b, []) if p.endswith(f)] or files.get(b, [])
    return [open(p, errors='replace').read().split('\n') for p in c]
for p in sorted(glob.glob('/verif/lean/Verif/Model/*.lean') + glob.glob('/verif/lean/Verif/*.lean')):
    t = open(p).read()
    for m in re.finditer(r'(?:/--(.*?)-/\s*)?(?:@\[[^\]]*\]\s*)?^(?:private |noncomputable )?(def|abbrev|structure|inductive)\s+(\S+)', t, re.S | re.M):
        doc, kind, name = m.group(1), m.group(2), m.group(3)
        ln = t[:m.start(3)].count('\n') + 1
        where = f'{os.path.relpath(p, "/verif/lean")}:{ln} {name}'
        if doc is None or '-/' in doc:
            if '/Model/' in p: nodoc += 1; print('NODOC', where)
            continue
        cs = list(CITE.finditer(doc))
        if not cs:
            if '/Model/' in p: print('NOCITE', where, '|', ' '.join(doc.split())[:110])
            continue
        lead = re.match(r'\s*`([A-Za-z_]\w*)`', doc)
        found = False; anyfile = False
        for c in cs:
            ls = lines(c.group(1))
            if not ls: print('NOFILE', where, c.group(0)); bad += 1; continue
            anyfile = True
            rngs = [(int(c.group(2)), int(c.group(3) or c.group(2)))]
            for x in re.findall(r'(\d+)(?:[-–](\d+))?', c.group(4) or ''): rngs.append((int(x[0]), int(x[1] or x[0])))
            for a, b in rngs:
                if b < a: print('RANGE', where, c.group(0)); bad += 1
                if all(b > len(l) for l in ls): print('PAST', where, c.group(0), len(ls[0])); bad += 1
                if lead:
                    for l in ls:
                        if lead.group(1) in '\n'.join(l[max(0, a - 3):b + 2]): found = True
        if lead and anyfile and not found:
            hits = [i + 1 for c in cs for l in lines(c.group(1)) for i, x in enumerate(l) if re.search(r'\b' + lead.group(1) + r'\b', x)]
            print('NAME', where, lead.group(1), [c.group(0) for c in cs], 'occurs at', hits[:8]); bad += 1
        else: ok += 1
print('ok', ok, 'bad', bad, 'nodoc', nodoc)
