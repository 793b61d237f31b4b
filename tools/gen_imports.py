"""Writes lean/Verif.lean: one import per module under lean/Verif."""
import os
ROOT = os.path.join(os.path.dirname(os.path.dirname(os.path.abspath(__file__))), 'lean')
mods = []
for d, _, fs in os.walk(os.path.join(ROOT, 'Verif')):
    for f in fs:
        if f.endswith('.lean'):
            mods.append(os.path.relpath(os.path.join(d, f), ROOT)[:-5].replace('/', '.'))
with open(os.path.join(ROOT, 'Verif.lean'), 'w') as out:
    out.write(''.join(f'import {m}\n' for m in sorted(mods)))
