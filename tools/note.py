"""usage: note.py Cnn 'text' ... : record notes for the manifest"""
import json, os, sys
p = os.path.join(os.path.dirname(os.path.abspath(__file__)), "notes.json")
d = json.load(open(p))
a = sys.argv[1:]
for k, v in zip(a[::2], a[1::2]):
    d[k] = {"note": v}
with open(p, "w") as f:
    f.write("{\n" + ",\n".join(f" {json.dumps(k)}: {json.dumps(d[k])}" for k in sorted(d)) + "\n}\n")
