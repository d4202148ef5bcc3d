"""Writes the list of disagreements of DESIGN.md from the documentation of the theorems."""
import glob, os, re
root = os.path.dirname(os.path.dirname(os.path.abspath(__file__)))
out = []
for f in glob.glob(os.path.join(root, "lean/Verif/Props/*.lean")):
    s = open(f).read()
    for m in re.finditer(r"(?:/--((?:(?!-/).)*?)-/\s*)?theorem (C\d+\w*violated\w*)", s, re.S):
        out.append((m.group(2), os.path.basename(f), " ".join((m.group(1) or "").split())))
p = os.path.join(root, "DESIGN.md")
s = open(p).read()
mark = "<!-- disagreements -->\n"
s = s[:s.index(mark) + len(mark)] + "\n" + "".join(f"* `{n}` (`Props/{f}`): {d}\n" for n, f, d in sorted(out))
open(p, "w").write(s)
