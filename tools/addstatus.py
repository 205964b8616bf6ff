#!/usr/bin/env python3
"""usage: addstatus.py ID STATUS NOTE  (then run gen_manifest.py)"""
import json, sys, os
root = os.path.dirname(os.path.dirname(os.path.abspath(__file__)))
f = f"{root}/tools/status.json"
s = json.load(open(f))
s[sys.argv[1]] = {"status": sys.argv[2], "note": sys.argv[3]}
json.dump(dict(sorted(s.items())), open(f, "w"), indent=0)
