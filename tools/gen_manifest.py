"""Writes /verif/MANIFEST.json from the table below (one entry per property)."""
import json, re, pathlib, sys
root = pathlib.Path(__file__).resolve().parent.parent
claims = []
def c(pid, status, theorems, note=""):
    claims.append({"property": pid, "status": status, "theorems": ["HLC." + t for t in theorems.split()], "note": note})
exec((root / "tools" / "claims.py").read_text())
# full names: the namespaces open at each theorem
full = {}
for f in (root / "lean" / "Verif").rglob("*.lean"):
    stack = []
    for line in f.read_text().splitlines():
        m = re.match(r"(namespace|section|end|theorem)\b\s*([^\s:({\[]*)", re.sub(r"^(noncomputable |set_option .* in )+", "", line))
        if not m: continue
        kind, name = m.groups()
        if kind == "end" and not re.fullmatch(r"end( [\w.]+)?\s*", line): continue
        if kind == "theorem":
            n = ".".join([x for k, x in stack if k == "namespace"] + [name])
            full.setdefault(name.split(".")[-1], set()).add(n)
        elif kind == "end":
            if stack: stack.pop()
        else:
            stack.append((kind, name))
bad = []
for x in claims:
    for i, t in enumerate(x["theorems"]):
        short = t[4:]
        hits = [n for n in full.get(short.split(".")[-1], ()) if n == t or n.endswith("." + short)]
        if len(hits) != 1: bad.append((t, hits)); continue
        x["theorems"][i] = hits[0]
if bad:
    sys.exit("unknown theorems: %s" % bad)
claims.sort(key=lambda x: x["property"])
(root / "MANIFEST.json").write_text(json.dumps({"claims": claims}, indent=1) + "\n")
print(len(claims), "claims")
props = [json.loads(l)["id"] for l in open(root / "properties.jsonl")]
print("missing:", [p for p in props if p not in {x["property"] for x in claims}])
