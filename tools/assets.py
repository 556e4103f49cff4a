#!/usr/bin/env python3
"""The documents in /repo/examples/assets as Lean modules (Model/TigerJson.lean, Model/PolyStarJson.lean)."""
import json, textwrap

def generate(src, name, mod):
    d = json.load(open('/repo/examples/assets/' + src), parse_float=lambda s: ('F', s))
    defs = []

    def string(s):
        return json.dumps(s, ensure_ascii=False).replace(' ', '\x01')

    def decimal(s):
        assert 'e' not in s.lower()
        i, _, fr = s.lstrip('-').partition('.')
        n = int(i + fr)
        return f"x r {f'(-{n})' if s.startswith('-') else n} {len(fr)}"

    def part(v):
        s = term(v)
        if len(s) <= 1500 or not isinstance(v, (dict, list)): return s
        n = f'{name}{len(defs) + 1}'
        defs.append((n, s))
        return f'{n} r'

    def term(v):
        if v is None: return '.null'
        if isinstance(v, bool): return f'.bool {str(v).lower()}'
        if isinstance(v, tuple): return decimal(v[1])
        if isinstance(v, int): return f'n {v}' if v >= 0 else f'm ({v})'
        if isinstance(v, str): return f'.str {string(v)}'
        if isinstance(v, list): return '.arr [' + ', '.join(map(part, v)) + ']'
        es = sorted(v.items(), key=lambda e: e[0].encode())
        return '.obj [' + ', '.join(f'({string(k)}, {part(w)})' for k, w in es) + ']'

    defs.append((name, term(d)))
    w = open(f'/verif/lean/Verif/Model/{mod}.lean', 'w')
    w.write(f'''import Verif.Model.AssetJson

/-!
# `/repo/examples/assets/{src}`

Generated by `tools/assets.py`.  The fraction `n / 10 ^ d` is `x r n d`, where `r` says which number the parser
reads for it; objects have their entries in the order of the keys.  Large values are definitions of their own.
-/

namespace Velato.Assets

section
variable {{F : Type}} (r : Int → Nat → F)

''')
    for k, (n, s) in enumerate(defs):
        doc = f'`examples/assets/{src}`' if n == name else f'A value in `examples/assets/{src}`'
        body = '\n'.join('  ' + l.replace('\x01', ' ') for l in
                         textwrap.wrap(s, 108, break_long_words=False, break_on_hyphens=False))
        w.write(f'/-- {doc}. -/\ndef {n} : Json F :=\n{body}\n\n')
    w.write('end\nend Velato.Assets\n')
    print(mod, len(defs))

generate('PolyStarTest.json', 'polyStar', 'PolyStarJson')
generate('google_fonts/Tiger.json', 'tiger', 'TigerJson')
