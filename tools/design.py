"""Copy the notes of tools/notes.json to the list of partial claims in DESIGN.md; claims that are missing in the list are added."""
import json, re

d = json.load(open('/verif/tools/notes.json'))
titles = {r['id']: r['title'] for r in map(json.loads, open('/verif/properties.jsonl'))}
p = '/verif/DESIGN.md'
lines = open(p).read().split('\n')
pat = re.compile(r'^\* \*\*(C\d+)\*\* \(.*?\)\. ')
at = [i for i, l in enumerate(lines) if pat.match(l)]
assert at == list(range(at[0], at[-1] + 1)), at
have = {pat.match(lines[i]).group(1): lines[i] for i in at}
for k, v in d.items():
    have[k] = '* **%s** (%s). %s' % (k, titles[k], v)
lines[at[0]:at[-1] + 1] = [have[k] for k in sorted(have, key=lambda k: int(k[1:]))]
open(p, 'w').write('\n'.join(lines))
