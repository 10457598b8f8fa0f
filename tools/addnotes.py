#!/usr/bin/env python3
"""addnotes.py FILE: merges {"Cnn": "note"} from a JSON file into tools/notes.json."""
import json, sys, os
root = os.path.dirname(os.path.dirname(os.path.abspath(__file__)))
p = os.path.join(root, "tools", "notes.json")
n = json.load(open(p))
for k, v in json.load(open(sys.argv[1])).items():
    n.setdefault(k, {})["note"] = v
json.dump(dict(sorted(n.items())), open(p, "w"), indent=1)
