#!/usr/bin/env python3
"""Seed a bug into a scratch copy of the model, rebuild, and report the property theorems that no longer hold.

usage: mutate.py mutations.json out.jsonl
A mutation is {"definition", "file" (under lean/), "old", "new", "edit", "claim"}.  Declarations whose proofs break are
replaced by `sorry` until the copy builds; the property theorems (Cnn_*) that then depend on `sorryAx` have failed."""
import json, os, re, subprocess, sys, shutil
SRC = '/verif/lean'; W = os.environ.get('MUTDIR', '/tmp/mut/lean'); BASE = W + '.base'

def sync():
    shutil.rmtree(W, ignore_errors=True)
    subprocess.run(['cp', '-a', BASE, W], check=True)

DECL = re.compile(r'^(?:private |protected |noncomputable |@\[[^\]]*\] ?)*(theorem|lemma|example|instance|def|abbrev|structure|inductive)\b', re.M)

def blocks(text):
    st = [m.start() for m in DECL.finditer(text)]
    return [(a, b) for a, b in zip(st, st[1:] + [len(text)])]

def sorry_at(path, lines):
    text = open(path).read()
    off = [0]
    for l in text.split('\n'): off.append(off[-1] + len(l) + 1)
    hit = set()
    src = text.split('\n')
    for ln in lines:
        if src[ln - 1].startswith(('set_option', '/--')):  # an option or a comment before the declaration
            while ln < len(src) and not DECL.match(src[ln - 1]): ln += 1
        for i, (a, b) in enumerate(blocks(text)):
            if a <= off[ln - 1] + 0 < b or (off[ln-1] <= a < off[ln]): hit.add(i)
    names = []
    bl = blocks(text)
    for i in sorted(hit, reverse=True):
        a, b = bl[i]; t = text[a:b]
        m = re.match(r'(?:\S+ )*?(theorem|lemma|example|instance|def|abbrev)\s*(\S*)', t)
        kind = m.group(1) if m else '?'
        name = m.group(2) if m else '?'
        if kind not in ('theorem', 'lemma', 'example', 'instance'):
            return None, f'{kind} {name} does not elaborate'
        # keep trailing comment of the next declaration / section text
        tail = re.search(r'\n\n(?=/--|/-!|end\b|section|namespace|open |variable|set_option|@\[|instance|attribute|local |#)|\n(?=end\b)', t)
        rest = t[tail.start():] if tail else '\n'
        body = t[:tail.start()] if tail else t
        # cut at the := that ends the statement
        depth = 0; cut = None
        for k, c in enumerate(body):
            if c in '([{⟨': depth += 1
            elif c in ')]}⟩': depth -= 1
            elif (body.startswith(':=', k) and depth == 0 and
                  not re.search(r'\blet\s[^;]*$', body[body.rfind('\n', 0, k) + 1:k])): cut = k; break
        if cut is None:
            k = body.find('\n  | ')
            if k < 0: return None, 'cannot cut ' + name
            cut = k
        if 'sorry' in body[cut:cut+12]:
            return None, f'statement of {name} does not elaborate'
        if kind == 'example':
            text = text[:a] + 'example : True := trivial\n' + rest + text[b:]
            names.append('example')
        else:
            text = text[:a] + body[:cut] + ':= by sorry\n' + rest + text[b:]
            names.append(name)
    open(path, 'w').write(text)
    return names, None

def build():
    p = subprocess.run(['lake', 'build'], cwd=W, capture_output=True, text=True, timeout=3000)
    out = p.stdout + p.stderr
    errs = {}
    for m in re.finditer(r'^error: (?:\./)?(Verif\S*\.lean):(\d+):\d+', out, re.M):
        errs.setdefault(m.group(1), set()).add(int(m.group(2)))
    return p.returncode, errs, out

def run(mu):
    sync()
    p = os.path.join(W, mu['file'])
    s = open(p).read()
    if s.count(mu['old']) < 1: return {'error': 'pattern not found'}
    s = s.replace(mu['old'], mu['new'], mu.get('count', 1))
    open(p, 'w').write(s)
    broken = []
    dead = None
    for it in range(40):
        rc, errs, out = build()
        if rc == 0: break
        if not errs: return {'error': out[-1500:]}
        for f, ls in errs.items():
            names, e = sorry_at(os.path.join(W, f), ls)
            if e: dead = f + ': ' + e; break
            broken += [n for n in names if n not in broken]
        if dead: break
    if dead: return {'broken': broken, 'dead': dead}
    if rc != 0: return {'broken': broken, 'error': 'the copy never built: ' + out[-800:]}
    # which property theorems rest on sorry
    mods = [l.split()[1] for l in open(W + '/Verif.lean') if l.startswith('import ')]
    ths = []
    for root, _, fs in os.walk(W + '/Verif/Props'):
        for f in sorted(fs):
            t = open(os.path.join(root, f)).read()
            ns = []
            for l in t.split('\n'):
                m = re.match(r'namespace (\S+)', l)
                if m: ns.append(m.group(1))
                m = re.match(r'end (\S+)', l)
                if m and ns and ns[-1] == m.group(1): ns.pop()
                m = re.match(r'theorem (C\d\d\d?_\S+|C\d\d\d?)\b', l)
                if m: ths.append('.'.join(ns + [m.group(1)]))
    chk = 'import Verif\n' + ''.join(f'#print axioms {t}\n' for t in ths)
    open(W + '/chk.lean', 'w').write(chk)
    p = subprocess.run(['lake', 'env', 'lean', 'chk.lean'], cwd=W, capture_output=True, text=True)
    failed = []
    for m in re.finditer(r"'([^']+)' depends on axioms: \[([^\]]*)\]", p.stdout + p.stderr):
        if 'sorryAx' in m.group(2): failed.append(m.group(1).split('.')[-1])
    return {'broken': broken, 'failed': failed}

if __name__ == '__main__':
    mus = json.load(open(sys.argv[1]))
    shutil.rmtree(BASE, ignore_errors=True)
    os.makedirs(os.path.dirname(W), exist_ok=True)
    subprocess.run(['cp', '-a', SRC, BASE], check=True)
    for mu in mus:
        r = run(mu)
        hit = [t for t in r.get('failed', []) if any(t.startswith(c + '_') or t == c for c in re.findall(r'C\d+', mu['claim']))]
        rec = {'definition': mu['definition'], 'edit': mu['edit'], 'claim': mu['claim'], 'failed': r.get('failed'),
               'broken_lemmas': [n for n in r.get('broken', []) if n not in r.get('failed', []) and n != 'example'], 'tightened': []}
        for k in ('dead', 'error'):
            if k in r: rec[k] = r[k]
        rec['killed'] = bool(hit)
        open(sys.argv[2], 'a').write(json.dumps(rec) + '\n')
        print('KILLED' if hit else 'SURVIVED', mu['definition'], '|', mu['edit'], '|', mu['claim'], '->', r.get('failed'), r.get('dead', ''), r.get('error', '')[:300], flush=True)
