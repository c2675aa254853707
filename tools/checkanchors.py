#!/usr/bin/env python3
"""Checks that every anchor file:symbol of properties.jsonl occurs in /repo."""
import json,os,re
for l in open('/verif/properties.jsonl'):
    d=json.loads(l)
    for a in d['anchors']:
        f,s=a.split(':')
        p='/repo/'+f
        if not os.path.exists(p): print(d['id'],'nofile',a);continue
        if not re.search(r'\b'+re.escape(s)+r'\b',open(p,errors='replace').read()): print(d['id'],'nosym',a)
