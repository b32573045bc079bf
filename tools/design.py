# Writes /verif/DESIGN.md from design_head.md, properties.jsonl, MANIFEST.json and #print axioms.
import json, os, subprocess, re
M = json.load(open("/verif/MANIFEST.json"))["claims"]
T = {}
for l in open("/verif/properties.jsonl"):
    d = json.loads(l); T[d["id"]] = d["title"]
names = []
for c in M:
    for t in c["theorems"]:
        if t not in names: names.append(t)
src = "import Verif\n" + "".join("#print axioms %s\n" % t for t in names)
open("/tmp/axioms.lean", "w").write(src)
out = subprocess.run(["lake", "env", "lean", "/tmp/axioms.lean"], cwd="/verif/lean", capture_output=True, text=True).stdout
out = re.sub(r"\n\s+", " ", out)
ax = {}
for l in out.splitlines():
    m = re.match(r"'(.*)' depends on axioms: \[(.*)\]", l)
    if m: ax[m.group(1)] = [a.strip() for a in m.group(2).split(",")]
    m = re.match(r"'(.*)' does not depend on any axioms", l)
    if m: ax[m.group(1)] = []
missing = [t for t in names if t not in ax]
assert not missing, missing
s = open("/verif/tools/design_head.md").read()
s += "| property | status | theorems | remarks |\n|---|---|---|---|\n"
for c in sorted(M, key=lambda c: c["property"]):
    s += "| %s %s | %s | %s | %s |\n" % (c["property"], T[c["property"]], c["status"],
        ", ".join("`%s`" % t.replace("PyBox.", "") for t in c["theorems"]), c["note"].replace("|", "\\|"))
s += "\n## Axioms\n\nOutput of `#print axioms` for all theorems of the manifest, grouped.\n\n"
g = {}
for t in names: g.setdefault(", ".join("`%s`" % a for a in sorted(ax[t])) or "none", []).append(t.replace("PyBox.", ""))
for k in sorted(g): s += "* %s: %s\n" % (k, ", ".join("`%s`" % t for t in sorted(g[k])))
open("/verif/DESIGN.md", "w").write(s)
print({k: len(v) for k, v in g.items()})
