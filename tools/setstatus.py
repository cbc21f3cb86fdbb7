#!/usr/bin/env python3
"""Merge status overrides (JSON object on stdin) into tools/status.json and regenerate the manifest."""
import json, os, subprocess, sys
here = os.path.dirname(os.path.abspath(__file__))
path = os.path.join(here, 'status.json')
d = json.load(open(path))
d.update(json.load(sys.stdin))
json.dump(d, open(path, 'w'), indent=1, ensure_ascii=False, sort_keys=True)
subprocess.run([sys.executable, os.path.join(here, 'manifest.py')], check=True)
