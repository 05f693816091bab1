"""Append the killed mutations of a mutate.py output to seeded/LOG.jsonl; print the survivors."""
import json, sys
k = 0
with open('/verif/seeded/LOG.jsonl', 'a') as out:
    for l in open(sys.argv[1]):
        d = json.loads(l)
        dead = d.pop('dead', None)
        err = d.pop('error', None)
        if d.pop('killed'):
            out.write(json.dumps(d) + '\n'); k += 1
        else: print('SURVIVED', d['definition'], '|', d['edit'], '|', d['claim'], '|', dead, err)
print(k, 'killed')
