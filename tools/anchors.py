#!/usr/bin/env python3
"""Checks that every anchor in properties.jsonl names an existing file of /repo and symbols that occur in it."""
import json, os, re
bad = 0
for l in open('properties.jsonl'):
    d = json.loads(l)
    for a in d['anchors']:
        f, _, syms = a.partition(':')
        p = os.path.join('/repo', f.strip())
        if not os.path.exists(p):
            print(d['id'], 'no file', f); bad += 1; continue
        if os.path.isdir(p): continue
        t = open(p, errors='replace').read()
        for s in re.split(r',\s*', syms.strip()):
            s = s.strip()
            if s and s not in t:
                print(d['id'], f, 'no symbol', s); bad += 1
print('bad anchors:', bad)
