#!/usr/bin/env python3
"""Append properties to properties.jsonl: JSON objects on stdin, one per line or a JSON list."""
import json, os, sys
root = os.path.dirname(os.path.dirname(os.path.abspath(__file__)))
path = os.path.join(root, 'properties.jsonl')
have = [json.loads(l)['id'] for l in open(path)]
with open(path, 'a') as f:
    for d in json.load(sys.stdin):
        assert d['id'] not in have, d['id']
        assert set(d) == {'id', 'title', 'statement', 'quantifier', 'why_tests_cant', 'anchors'}, d
        f.write(json.dumps(d, ensure_ascii=False) + '\n')
