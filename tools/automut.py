#!/usr/bin/env python3
"""Systematic small edits of the model, to find definitions that no theorem looks at.

Every edit is applied to the model in a scratch copy, which is then built up to the first error.
An error in the model itself: the edit is not well-typed.  No error anywhere: the edit survived.
Usage: automut.py FILE.lean ...      writes /tmp/am/results.jsonl, skips what is already there, in a random order
"""
import json, os, random, re, signal, subprocess, sys, shutil
V = '/verif'; S = '/tmp/am'; L = S + '/lean'; OUT = S + '/results.jsonl'
SUBS = [(r' \+\. ', ' -. '), (r' -\. ', ' +. '), (r' \*\. ', ' /. '), (r' /\. ', ' *. '),
        (r' <\. ', ' <=. '), (r' <=\. ', ' <. '), (r' ==\. ', ' <. '),
        (r'\blit 0\b', 'lit 1'), (r'\blit 1\b', 'lit 0'), (r'\blit 100\b', 'lit 10'), (r'\blit \((\d+) / (\d+)\)', r'lit (\1 / 7)'),
        (r'\blit ([2-9])\b', 'lit 1'),
        (r'(?<=\w)\.x\b', '.y'), (r'(?<=\w)\.y\b', '.x'), (r' && ', ' || '), (r' \|\| ', ' && '),
        (r' ∧ ', ' ∨ '), (r' ≤ ', ' < '), (r' < ', ' ≤ '), (r' = (?=\w)', ' ≠ '), (r' == ', ' != '), (r' != ', ' == '),
        (r'\btrue\b', 'false'), (r'\bfalse\b', 'true'), (r'!(?=[\w(])', ''),
        (r' \+ 1\b', ''), (r' - 1\b', ''), (r' \+ (?=\w)', ' - '), (r' - (?=\w)', ' + '),
        (r'\.reverse\b', ''), (r'"([^"\n]+)"', r'"\1_"'),
        (r'\.1\b', '.2'), (r'\.2\b', '.1'), (r'\bstart\b(?!\s*[:)])', 'stop'), (r'\bstop\b(?!\s*[:)])', 'start'),
        (r'\bmin\b', 'max'), (r'\bmax\b', 'min'), (r'\bsin\b', 'cos'), (r'\bcos\b', 'sin'), (r'\btake\b', 'drop'), (r'\bdrop\b', 'take'),
        (r'\bsome \(?[\w.]+\)?(?=$| *[,)⟩])', 'none'), (r'\(some \w+\)', 'none'),
        (r'⟨([^⟨⟩,()]+), ([^⟨⟩,()]+)(?=[,⟩])', r'⟨\2, \1'), (r', ([^⟨⟩,()]+), ([^⟨⟩,()]+)(?=[,⟩])', r', \2, \1'),
        (r'\(([\w.]+), ([\w.]+)\)', r'(\2, \1)'), (r'\[([^\[\],]+), ([^\[\],]+)(?=[,\]])', r'[\2, \1'), (r', (\.\w+), (\.\w+)', r', \2, \1'),
        (r'(?<=[\w)]) (\w+) (\w+)(?=$|[)\],⟩])', r' \2 \1'),
        (r'\bif (.*) then (.*) else (.*)$', r'if \1 then \3 else \2'), (r' \+\+ ', None), (r'\bxs\.head', None),
        (r'\.getD \(?([\w.]+( [\w.]+)?)\)?', None)]
ARM = re.compile(r'^(\s*\| )(.*?) => (.+)$')

def mask(s):
    """Comments blanked out, positions kept."""
    out = list(s); i = 0
    while i < len(s):
        if s.startswith('/-', i):
            j = s.index('-/', i) + 2
        elif s.startswith('--', i):
            j = s.find('\n', i); j = len(s) if j < 0 else j
        else:
            i += 1; continue
        for k in range(i, j):
            if out[k] != '\n': out[k] = '\0'
        i = j
    return ''.join(out)

def mutants(f):
    s = open(f'{V}/lean/Verif/Model/{f}').read(); m = mask(s); lines = m.split('\n'); off = 0; seen = set()
    defn = ''; body = False
    for n, l in enumerate(lines):
        d = re.match(r'(?:@\[[^\]]*\] )?(?:private |noncomputable |protected )*(def|theorem|lemma|instance|inductive|structure|class|abbrev|variable|open|import|omit|deriving|end|section|namespace)\b\s*([^\s:({\[]*)', l)
        if d: defn = d.group(1) + ' ' + d.group(2); body = d.group(1) in ('def', 'instance', 'abbrev'); sig = True
        if not body: off += len(l) + 1; continue
        a = 0
        if d:
            a = l.find(':=') if ':=' in l else len(l)
        elif sig and ':=' not in l and not l.lstrip().startswith('|'):
            a = len(l)
        elif sig:
            a = l.find(':=') + 2 if ':=' in l else 0
        if ':=' in l or l.lstrip().startswith('|'): sig = False
        for pat, rep in SUBS:
            if rep is None: continue
            for x in re.finditer(pat, l):
                if x.start() < a or '\0' in x.group(0): continue
                # an arm's pattern is left alone
                arm = ARM.match(l)
                if arm and x.start() < l.find(' => ') and '"' not in x.group(0): continue
                new = l[:x.start()] + x.expand(rep) + l[x.end():]
                if new != l and (n, new) not in seen:
                    seen.add((n, new)); yield defn, n, l, new
        x = ARM.match(l)
        if x and n + 1 < len(lines):
            y = ARM.match(lines[n + 1])
            if y and y.group(1) == x.group(1) and x.group(3) != y.group(3) and '\0' not in l + lines[n + 1]:
                new = f'{x.group(1)}{x.group(2)} => {y.group(3)}\n{y.group(1)}{y.group(2)} => {x.group(3)}'
                yield defn, n, l + '\n' + lines[n + 1], new
        off += len(l) + 1

def sync():
    B = S + '/base'
    for d, ds, fs in os.walk(B + '/lean'):
        if '.lake' in ds: ds.remove('.lake')
        r = os.path.relpath(d, B + '/lean'); os.makedirs(os.path.join(L, r), exist_ok=True)
        for f in fs:
            a = os.path.join(d, f); b = os.path.join(L, r, f)
            if not os.path.exists(b) or open(a, 'rb').read() != open(b, 'rb').read(): shutil.copy(a, b)

def build():
    p = subprocess.Popen(['lake', 'build'], cwd=L, stdout=subprocess.PIPE, stderr=subprocess.STDOUT, text=True, start_new_session=True)
    first = None
    try:
        for line in p.stdout:
            e = re.search(r'error: Verif/([\w/]+)\.lean:(\d+):', line)
            if e: first = (e.group(1), int(e.group(2)), line.strip()[:200]); break
            if 'error' in line and first is None and 'build failed' in line: first = ('?', 0, line.strip()); break
    finally:
        try: os.killpg(p.pid, signal.SIGKILL)
        except ProcessLookupError: pass
        p.wait()
    return first

def main():
    B = S + '/base'; shutil.rmtree(B, ignore_errors=True); os.makedirs(B)
    subprocess.run(f'git -C {V} archive HEAD | tar x -C {B}', shell=True, check=True)
    done = set()
    if os.path.exists(OUT): done = {(r['file'], r['old'], r['new']) for r in map(json.loads, open(OUT))}
    if sys.argv[1] == '--count':
        for f in sys.argv[2:]: print(f, sum(1 for _ in mutants(f)))
        return
    todo = [(f,) + m for f in sys.argv[1:] for m in mutants(f)]
    random.Random(1).shuffle(todo)
    for f, defn, n, old, new in todo:
        if (f, old, new) in done: continue
        sync()
        p = f'{L}/Verif/Model/{f}'; ls = open(p).read().split('\n'); k = old.count('\n') + 1
        if mask('\n'.join(ls)).split('\n')[n:n + k] != old.split('\n'): print('moved', f, n); continue
        ls[n:n + k] = new.split('\n'); open(p, 'w').write('\n'.join(ls))
        r = build()
        v = 'SURVIVED' if r is None else 'invalid' if r[0].startswith('Model') else 'broke'
        open(OUT, 'a').write(json.dumps({'file': f, 'def': defn, 'line': n + 1, 'old': old, 'new': new, 'verdict': v, 'at': r}, ensure_ascii=False) + '\n')
main()
