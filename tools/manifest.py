"""Regenerates lean/Verif.lean and MANIFEST.json from the Lean sources and tools/status.json.

status.json maps a property id to {"status": ..., "note": ...}; the theorem names are all theorems called
Cnn_* in lean/Verif/Props.
"""
import json
import pathlib
import re

root = pathlib.Path(__file__).resolve().parent.parent
mods = sorted(p.relative_to(root / 'lean').with_suffix('').as_posix().replace('/', '.')
              for p in (root / 'lean' / 'Verif').rglob('*.lean'))
(root / 'lean' / 'Verif.lean').write_text(''.join(f'import {m}\n' for m in mods))

status = json.loads((root / 'tools' / 'status.json').read_text())
props = [json.loads(l)['id'] for l in (root / 'properties.jsonl').read_text().splitlines() if l.strip()]
thms = {}
for p in sorted((root / 'lean' / 'Verif' / 'Props').rglob('*.lean')):
  ns = []
  for line in p.read_text().splitlines():
    m = re.match(r'namespace (\S+)', line)
    if m:
      ns.append(m.group(1))
    m = re.match(r'end (\S+)', line)
    if m and ns and ns[-1] == m.group(1):
      ns.pop()
    m = re.match(r'(?:@\[.*\] )?theorem (C(\d\d+)_\w+\'?)', line)
    if m:
      for i in [f'C{m.group(2)}']:
        thms.setdefault(i, []).append('.'.join(ns + [m.group(1)]))
claims = []
for i in props:
  s = status.get(i)
  if s is None:
    continue
  claims.append({'property': i, 'status': s['status'],
                 'theorems': thms.get(i, []) + s.get('also', []), 'note': s['note']})
(root / 'MANIFEST.json').write_text(json.dumps({'claims': claims}, indent=1, ensure_ascii=False) + '\n')
for i in thms:
  if i not in status:
    print('no status for', i, thms[i])
print(len(claims), 'claims,', sum(len(c['theorems']) for c in claims), 'theorems')
