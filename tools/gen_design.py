"""Rewrite the list of disagreements in DESIGN.md from MANIFEST.json: one bullet per partial claim."""
import json, os, re
here = os.path.dirname(os.path.abspath(__file__)); root = os.path.dirname(here)
man = {c['property']: c for c in json.load(open(f'{root}/MANIFEST.json'))['claims']}
props = {p['id']: p for p in map(json.loads, open(f'{root}/properties.jsonl'))}
f = f'{root}/DESIGN.md'
L = open(f).read().split('\n')
a = next(i for i, l in enumerate(L) if l.startswith('* **C01**'))
b = next(i for i, l in enumerate(L) if l.startswith('Further observations'))
old = {re.match(r'\* \*\*(C\d+)', l).group(1): l for l in L[a:b] if l.startswith('* **C')}
new = []
for k in sorted(props, key=lambda k: int(k[1:])):
    c = man[k]
    if c['status'] != 'partial' and k not in old: continue
    th = [t.split('.')[-1] for t in c['theorems'] if 'counterexample' in t or t.endswith('C03_top_layer_wraps')]
    new.append(f"* **{k}** {props[k]['title']}. {c.get('note','').strip()}" + (" Theorems: " + ', '.join(f'`{t}`' for t in th) + '.' if th else ''))
L[a:b] = new + ['']
open(f, 'w').write('\n'.join(L))
