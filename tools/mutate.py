#!/usr/bin/env python3
"""Test the theorems against wrong programs.

usage: mutate.py MUTATIONS.json [first]

Each mutation is {"definition", "file", "old", "new", "edit", "claim"}. A copy of the built Lake project is made in
/tmp/mut/w, the text `old` of lean/Verif/<file> is replaced by `new`, and the project is rebuilt. One line per mutation
is added to seeded/LOG.jsonl with the theorems that no longer prove: those with an error, and those of Props/ that
use one of them.
"""
import json, os, re, subprocess, sys, shutil
ROOT = os.path.dirname(os.path.dirname(os.path.abspath(__file__)))
BASE, W = '/tmp/mut/base', '/tmp/mut/w'
DECL = re.compile(r'^(?:private |protected |noncomputable |@\[[^\]]*\] )*(theorem|lemma|def|example|structure|inductive|abbrev|instance)\s*(\S*)')

def decls(path):
    """[(first line, kind, name, text)]"""
    lines = open(path).read().split('\n')
    out = []
    for i, l in enumerate(lines):
        m = DECL.match(l)
        if m:
            out.append([i + 1, m.group(1), m.group(2), []])
        if out:
            out[-1][3].append(l)
    return [(a, k, n, '\n'.join(t)) for a, k, n, t in out]

def refresh():
    shutil.rmtree(BASE, ignore_errors=True)
    os.makedirs('/tmp/mut', exist_ok=True)
    subprocess.run(['cp', '-a', ROOT + '/lean', BASE], check=True)

def build(timeout):
    try:
        p = subprocess.run(['timeout', str(timeout), 'lake', 'build', 'Verif'], cwd=W, capture_output=True, text=True)
        out = p.stdout + p.stderr + ('\nTIMEOUT' if p.returncode == 124 else '')
        # a module whose prover was killed (explaining a failed `decide` can take all the memory) printed nothing: take what it prints until then
        for mod in set(re.findall(r'^✖ \[\d+/\d+\] Building (Verif\.\S+)', out, re.M)):
            path = mod.replace('.', '/') + '.lean'
            if f'error: {path}:' not in out:
                q = subprocess.run(['timeout', '60', 'lake', 'env', 'stdbuf', '-oL', 'lean', path], cwd=W, capture_output=True, text=True)
                out += '\n' + re.sub(r'^(Verif/\S+?\.lean:\d+:\d+): error', r'error: \1', q.stdout, flags=re.M)
        return out
    finally:
        subprocess.run(['pkill', '-f', 'bin/lean /tmp/mut/w/'])

def skip_proof(text):
    """The declaration with its proof left out, so that what depends on it can be checked."""
    ls = text.split('\n')
    for i, l in enumerate(ls):
        m = re.search(r':= by(\s|$)|:=$|:= [⟨(]|:= fun ', l)
        if m:
            rest, keep = ls[i+1:], []
            while rest and (rest[-1] == '' or rest[-1].startswith(('/-', '-/', '--', 'end ', 'open ', 'namespace ')) or
                            not rest[-1].startswith(' ')):
                keep.insert(0, rest.pop())
            return '\n'.join(ls[:i] + [l[:m.start()] + ':= by sorry'] + keep)
    return text

def run(m, timeout=400):
    shutil.rmtree(W, ignore_errors=True)
    subprocess.run(['cp', '-a', BASE, W], check=True)
    f = f'{W}/Verif/{m["file"]}'
    s = open(f).read()
    n = s.count(m['old'])
    if n != 1:
        return None, f'old text occurs {n} times'
    open(f, 'w').write(s.replace(m['old'], m['new']))
    failed, examples, defs, seen, timed = set(), 0, set(), set(), False
    # a module with an error hides those importing it: leave out the failing proofs and build again
    for _ in range(12):
        out = build(timeout)
        timed = timed or 'TIMEOUT' in out
        new = set()
        for mm in re.finditer(r'error: (Verif/\S+?\.lean):(\d+):\d+', out):
            d = [x for x in decls(f'{W}/{mm.group(1)}') if x[0] <= int(mm.group(2))]
            if d: new.add((mm.group(1),) + d[-1])
        new = {x for x in new if (x[0], x[2], x[3], x[4]) not in seen}
        if not new: break
        for path in {x[0] for x in new}:
            text = open(f'{W}/{path}').read()
            for p, a, k, name, t in new:
                if p != path: continue
                seen.add((p, k, name, t))
                if k == 'example':
                    examples += 1
                    text = text.replace(t, skip_proof(t))
                elif k in ('theorem', 'lemma'):
                    failed.add(name)
                    text = text.replace(t, skip_proof(t))
                else: defs.add(name)
            open(f'{W}/{path}', 'w').write(text)
        if timed: break
    # theorems using them
    alld = []
    for r, _, fs in os.walk(f'{W}/Verif'):
        for x in fs:
            if x.endswith('.lean') and x != 'Audit.lean':
                for a, k, name, t in decls(os.path.join(r, x)):
                    if k in ('theorem', 'lemma'):
                        alld.append((name, set(re.findall(r"[\w']+", t)) , '/Props/' in os.path.join(r, x)))
    broken = set(failed); grew = True
    while grew:
        grew = False
        for name, words, _ in alld:
            if name not in broken and words & {b.split('.')[-1] for b in broken}:
                broken.add(name); grew = True
    props = sorted(n for n, _, p in alld if p and n in broken and not n.startswith('aux_'))
    return {'direct': sorted(failed), 'props': props, 'examples': examples, 'defs': sorted(defs), 'timeout': timed}, out

if __name__ == '__main__':
    ms = json.load(open(sys.argv[1]))
    first = int(sys.argv[2]) if len(sys.argv) > 2 else 0
    refresh()
    for m in ms[first:]:
        r, out = run(m)
        if r is None:
            print('SKIP', m['definition'], m['edit'], out); continue
        line = {'definition': m['definition'], 'edit': m['edit'], 'claim': m['claim'],
                'failed': r['props'], 'errors_in': r['direct'], 'examples_failed': r['examples'], 'tightened': m.get('tightened', [])}
        if r['defs']: line['note'] = 'errors in definitions: ' + ', '.join(r['defs'])
        if r['timeout']: line['note'] = 'build stopped after the time limit'
        cid = m['claim'].split()[0].rstrip(':')
        hit = any(x.startswith(cid) for x in r['props'])
        print('OK  ' if hit else 'WEAK', m['definition'], '|', m['edit'], '|', m['claim'], '->', r['props'], r['direct'][:6], r['examples'], r['defs'], flush=True)
        if '--dry' not in sys.argv:
            open(ROOT + '/seeded/LOG.jsonl', 'a').write(json.dumps(line) + '\n')
