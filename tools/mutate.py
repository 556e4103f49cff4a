#!/usr/bin/env python3
"""Run the seeded bugs of seeded/mutants.json against the theorems, in a scratch copy.

For each mutant: apply the edit to the model in the scratch copy, rebuild; every declaration whose
proof fails gets the proof `sorry`, until everything builds; the property theorems that then depend
on `sorryAx` are the ones that no longer hold together.  One line per mutant goes to LOG.jsonl.
Usage: mutate.py [--quick] [name ...]   (default: all mutants not yet in the log)
With --quick only the modules with the theorems of the claimed properties are built, and only those
theorems are examined.
"""
import json, os, re, shutil, subprocess, sys
V = '/verif'; S = '/tmp/mut'; L = S + '/lean'; B = S + '/base'  # B: checkout of the last commit
LOG = V + '/seeded/LOG.jsonl'
DECL = re.compile(r'^(?:@\[[^\]]*\]\s*)?(?:private |noncomputable |protected )*(theorem|lemma|example|instance|def|abbrev|structure|inductive|class)\b')
TOP = re.compile(r'^(?:@\[|private |noncomputable |protected |theorem|lemma|example|instance|def |abbrev|structure|inductive|class|/-|section|omit|open|variable|namespace|mutual|set_option|end\b|scoped|local|macro|syntax|elab)')

def sync():
    os.makedirs(L, exist_ok=True)
    subprocess.run(['rsync', '-a', '--delete', '--exclude', '.lake', B + '/lean/', L + '/'], check=True) if shutil.which('rsync') else copy()

def copy():
    for d, ds, fs in os.walk(B + '/lean'):
        if '.lake' in ds: ds.remove('.lake')
        r = os.path.relpath(d, B + '/lean')
        os.makedirs(os.path.join(L, r), exist_ok=True)
        for f in fs:
            a = os.path.join(d, f); b = os.path.join(L, r, f)
            if not os.path.exists(b) or open(a, 'rb').read() != open(b, 'rb').read():
                shutil.copy(a, b)
    for d, ds, fs in os.walk(L):
        if '.lake' in ds: ds.remove('.lake')
        r = os.path.relpath(d, L)
        for f in fs:
            if not os.path.exists(os.path.join(B, 'lean', r, f)): os.remove(os.path.join(d, f))

def build(targets):
    try:
        p = subprocess.run(['lake', 'build'] + targets, cwd=L, capture_output=True, text=True, timeout=2400)
    except subprocess.TimeoutExpired:
        return None
    return p.returncode, p.stdout + p.stderr

def decl_at(lines, n):
    i = n
    while i >= 0 and not DECL.match(lines[i]): i -= 1
    if i < 0: return None
    j = i + 1
    while j < len(lines) and not TOP.match(lines[j]): j += 1
    return i, j

def split(text):
    depth = 0; i = 0
    while i < len(text):
        c = text[i]
        if c in '([{⟨': depth += 1
        elif c in ')]}⟩': depth -= 1
        elif depth == 0 and text.startswith(':=', i):
            seg = text[max(text.rfind('\n', 0, i), text.rfind(';', 0, i)) + 1:i]
            if not re.search(r'\b(let|letI|have)\s', seg): return text[:i]
        elif depth == 0 and text.startswith('\n  | ', i): return text[:i]
        i += 1
    return None

def props(claim):
    """The modules and the manifest theorems of the claimed properties."""
    names = [t for c in json.load(open(B + '/MANIFEST.json'))['claims'] if c['property'] in claim for t in c['theorems']]
    mods = set()
    for f in sorted(os.listdir(B + '/lean/Verif/Props')):
        s = open(B + '/lean/Verif/Props/' + f).read()
        if any(re.search(r'\b' + re.escape(t.split('.')[-1]) + r'\b', s) for t in names): mods.add('Verif.Props.' + f[:-5])
    return sorted(mods), names

def run(m, quick):
    sync()
    mods, names = props(m['claim']) if quick else ([], [t for c in json.load(open(B + '/MANIFEST.json'))['claims'] for t in c['theorems']])
    p = L + '/Verif/' + m['file']
    s = open(p).read()
    assert s.count(m['old']) == 1, (m['name'], s.count(m['old']))
    open(p, 'w').write(s.replace(m['old'], m['new']))
    # helper lemmas that quote the edited expression follow the edit
    for d, _, fs in os.walk(L + '/Verif/Proofs'):
        for f in fs:
            q = os.path.join(d, f); s = open(q).read()
            if len(m['old']) > 12 and m['old'] in s: open(q, 'w').write(s.replace(m['old'], m['new']))
    broken = []; stuck = None
    for it in range(60):
        r = build(mods)
        if r is None: stuck = 'timeout'; break
        code, out = r
        if code == 0: break
        errs = re.findall(r'error: (Verif/[\w/]+\.lean):(\d+):\d+: (.*)', out)
        if not errs: stuck = out[-500:]; break
        byfile = {}
        for f, n, msg in errs: byfile.setdefault(f, set()).add(int(n) - 1)
        for f, ns in byfile.items():
            lines = open(L + '/' + f).read().split('\n')
            spans = set()
            for n in ns:
                d = decl_at(lines, n)
                if d is None: stuck = f'{f}:{n+1}'; continue
                spans.add(d)
            for i, j in sorted(spans, reverse=True):
                kind = DECL.match(lines[i]).group(1)
                t = '\n'.join(lines[i:j])
                name = re.match(r'.*?\b(?:theorem|lemma|example|instance|def|abbrev)\s*([^\s:({\[]*)', t).group(1) or 'example'
                broken.append(f'{f[6:-5].replace("/", ".")}:{name}')
                if kind not in ('theorem', 'lemma', 'example'):
                    stuck = f'{f}:{i+1} {kind} {name}'; continue
                h = split(t)
                if h is None: stuck = f'{f}:{i+1} {name}'; continue
                if broken.count(broken[-1]) > (20 if name == 'example' else 2): stuck = f'again {broken[-1]}'; continue
                lines[i:j] = [h.rstrip() + ' := by sorry', '']
            open(L + '/' + f, 'w').write('\n'.join(lines))
        if stuck: break
    failed = None
    if stuck is None:
        ax = ''.join(f'import {x}\n' for x in mods or ['Verif']) + ''.join(f'#print axioms {t}\n' for t in names)
        open(S + '/ax.lean', 'w').write(ax)
        out = subprocess.run(['lake', 'env', 'lean', S + '/ax.lean'], cwd=L, capture_output=True, text=True).stdout
        out = re.sub(r'\n\s+', ' ', out)
        failed = []
        for t in names:
            mm = re.search(r"'" + re.escape(t) + r"' (.*)", out)
            if mm is None or 'sorryAx' in mm.group(1): failed.append(t)
    return broken, failed, stuck

def main():
    ms = json.load(open(V + '/seeded/mutants.json'))
    done = set()
    if os.path.exists(LOG):
        done = {json.loads(l).get('name') for l in open(LOG) if l.strip()}
    quick = '--quick' in sys.argv[1:]; want = [a for a in sys.argv[1:] if a != '--quick']
    shutil.rmtree(B, ignore_errors=True); os.makedirs(B)
    subprocess.run(f'git -C {V} archive HEAD | tar x -C {B}', shell=True, check=True)
    for m in ms:
        if (want and m['name'] not in want) or (not want and m['name'] in done): continue
        broken, failed, stuck = run(m, quick)
        e = {'name': m['name'], 'definition': m['definition'], 'edit': f"{m['file']}: {m['old'].strip()!r} -> {m['new'].strip()!r}",
             'claim': m['claim'], 'failed': failed, 'broken_declarations': broken, 'tightened': m.get('tightened', [])}
        if quick: e['examined'] = 'the theorems of the claimed properties'
        if stuck: e['stuck'] = stuck
        hit = failed is not None and any(t.split('.')[-1].startswith(tuple(c + '_' for c in m['claim'])) for t in failed)
        e['caught'] = hit
        open(LOG, 'a').write(json.dumps(e, ensure_ascii=False) + '\n')
        print(m['name'], 'caught' if hit else 'MISSED', stuck or '', len(broken), failed and [t.split('.')[-1] for t in failed], flush=True)

main()
