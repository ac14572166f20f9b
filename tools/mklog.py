#!/usr/bin/env python3
"""Append the outcome of mutant runs (muts.json + muts.out.json) to seeded/LOG.jsonl."""
import json,sys
def main(paths, tightened):
    out=open('/verif/seeded/LOG.jsonl','a')
    for p in paths:
        ms={m['id']:m for m in json.load(open(p))}
        for r in json.load(open(p.replace('.json','.out.json'))):
            m=ms[r['id']]
            out.write(json.dumps(dict(id=r['id'],definition=m['file'],edit=f"{m['old']}  ==>  {m['new']}",
              claim=m['claim'],outcome='survived' if r['ok'] else 'killed',
              theorems_failed=r['fails'],theorems_tightened=tightened.get(r['id'],[])),ensure_ascii=False)+'\n')
t=json.load(open(sys.argv[1])) if sys.argv[1]!='-' else {}
main(sys.argv[2:],t)
