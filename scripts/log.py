"""Turn the results of the mutation runs into seeded/LOG.jsonl: log.py spec.jsonl result.jsonl ..."""
import sys, json, os
LOG = '/verif/seeded/LOG.jsonl'
old = [json.loads(l) for l in open(LOG)] if os.path.exists(LOG) else []
have = {o['id'] for o in old}
args = sys.argv[1:]
with open(LOG, 'a') as f:
    for sp, res in zip(args[::2], args[1::2]):
        specs = {}
        for l in open(sp):
            if l.strip():
                o = json.loads(l); specs[o['id']] = o
        for l in open(res):
            r = json.loads(l)
            if r['id'] in have or 'error' in r: continue
            s = specs[r['id']]
            edits = s.get('edits', [s])
            f.write(json.dumps({
                'id': r['id'],
                'definition': s['definition'],
                'file': [f"Verif/{e['file']}.lean" for e in edits],
                'edit': [{'old': e['old'], 'new': e['new']} for e in edits],
                'claim': s['claim'],
                'theorems_failed': r['failed'],
                'first_broken': sorted({x for v in r['blame'].values() for x in v}),
                'theorems_tightened': s.get('tightened', []),
            }, ensure_ascii=False) + '\n')
            have.add(r['id'])
