#!/usr/bin/env python3
"""claim.py ID STATUS NOTE: set one entry of tools/claims.json and rewrite MANIFEST.json."""
import json, os, subprocess, sys
root = os.path.dirname(os.path.dirname(os.path.abspath(__file__)))
p = f"{root}/tools/claims.json"
c = json.load(open(p))
c[sys.argv[1]] = {"status": sys.argv[2], "note": sys.argv[3]}
json.dump(dict(sorted(c.items())), open(p, "w"), indent=1, ensure_ascii=False)
subprocess.run([sys.executable, f"{root}/tools/mkmanifest.py"], check=True)
