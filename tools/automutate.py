"""Makes small edits in the definitions of the model: one operator, comparison, constant, text or Boolean changed at a time.

usage: automutate.py seed per_definition out.json [name ...]
For each definition under lean/Verif/Model (or the named ones) up to `per_definition` edits are drawn. The result is a list for mutate.py
without a claim: mutate.py then builds the whole project and reports the theorems that fail.
"""
import json, pathlib, random, re, sys
seed, per, out = int(sys.argv[1]), int(sys.argv[2]), sys.argv[3]
only = set(sys.argv[4:])
rng = random.Random(seed)
base = pathlib.Path("/verif/lean")
swaps = [(" + ", " - "), (" - ", " + "), (" * ", " / "), (" / ", " * "), (" < ", " ≤ "), (" ≤ ", " < "), (" > ", " ≥ "), (" ≥ ", " > "),
         (" ∧ ", " ∨ "), (" ∨ ", " ∧ "), ("max ", "min "), ("min ", "max "), ("true", "false"), ("false", "true"), (" ≠ ", " = "),
         (".heating", ".cooling"), (".cooling", ".heating"), ("sin ", "cos "), ("cos ", "sin "), ("some true", "some false"),
         (" && ", " || "), (" || ", " && "), ("thetaR", "thetaMrt"), ("phiA0", "phiT0"), ("phiA1", "phiT1"), ("dshA", "dshT"),
         ("none", "some 0"), (" ++ ", " ++ [] ++ ")]
swaps = swaps[:-1]
muts = []
for f in sorted((base / "Verif/Model").glob("*.lean")):
    s = f.read_text()
    parts = list(re.finditer(r"^(?:open [^\n]* in\n)?(?:@\[[^\]]*\]\s*)?(?:noncomputable )?def (\S+)", s, re.M))
    cuts = [m.start() for m in re.finditer(r"^(?:/--|/-!|end\b|section\b|namespace\b|variable\b|open\b|noncomputable\b|def\b|structure\b|inductive\b|theorem\b|abbrev\b|instance\b|@\[)", s, re.M)] + [len(s)]
    for m in parts:
        name = m.group(1)
        if only and name not in only: continue
        end = min(c for c in cuts if c > m.end())
        body = s[m.start():end]
        i = body.find(":=")
        j = re.search(r"^\s*\|", body, re.M)
        start = min([x for x in (i, j.start() if j else -1) if x >= 0] or [len(body)])
        cand = []
        for a, b in swaps:
            for k in re.finditer(re.escape(a), body[start:]):
                cand.append((start + k.start(), a, b))
        for k in re.finditer(r"(?<![\w.₀-₉])(\d+(?:\.\d+)?)(?![\w.])", body[start:]):
            v = k.group(1)
            w = str(int(v) + 1) if "." not in v else (str(int(v.split(".")[0]) + 1) + "." + v.split(".")[1])
            cand.append((start + k.start(), v, w))
        for k in re.finditer(r'"([^"\n]+)"', body[start:]):
            cand.append((start + k.start(), k.group(0), '"' + k.group(1) + 'x"'))
        rng.shuffle(cand)
        for pos, a, b in cand[:per]:
            new = body[:pos] + b + body[pos + len(a):]
            lo = body.rfind("\n", 0, pos) + 1
            hi = body.find("\n", pos)
            line = new[lo: new.find("\n", lo)].strip()
            muts.append({"file": str(f.relative_to(base)), "def": name, "old": body, "new": new,
                         "edit": "%s to %s in: %s" % (a.strip(), b.strip(), line[:160]), "claim": ""})
rng.shuffle(muts)
json.dump(muts, open(out, "w"), ensure_ascii=False, indent=0)
print(len(muts))
