"""Structural edits in the definitions of the model: exchanged branches, exchanged sibling names, dropped terms, dropped checks,
dropped list entries, exchanged arguments. Usage and output as automutate.py."""
import json, pathlib, random, re, sys
seed, per, out = int(sys.argv[1]), int(sys.argv[2]), sys.argv[3]
only = set(sys.argv[4:])
rng = random.Random(seed)
base = pathlib.Path("/verif/lean")
siblings = [("thetaUpper", "thetaLower"), ("capH", "capC"), ("gSh", "gLh"), ("cSh", "cLh"), ("isRadHeating", "isRadCooling"), ("xR", "xFrt"),
            ("thetaR", "thetaFrt"), ("hC", "hR"), ("hI", "hC"), ("d0", "d90"), ("d90", "d180"), ("lMs", "lOs"), ("x1", "x2"), ("y1", "y2"), ("x2", "x3"),
            ("zxPls", "zxMns"), ("zyPls", "zyMns"), ("iDn", "iSky"), ("sinH", "cosH"), ("sinA", "cosA"), ("rIn", "rOut"), ("aF", "fS"), ("heating", "cooling"),
            ("qMinC", "qMaxC"), ("vMin", "vMax"), ("thetaO", "xO"), ("qGen", "xGen"), ("nHum", "qGen"), ("main", "other"), ("tau", "rho"), ("tauF", "tauB"),
            ("rhoF", "rhoB"), ("aMr", "aOr"), ("aOr", "aNr"), ("heatingOnly", "coolingOnly"), ("front", "back"), ("inside", "outside"), ("area", "length"),
            ("isFloor", "isSolarAbsorbed"), ("room", "id"), ("thetaEi", "thetaS"), ("thetaMrt", "thetaOt"), ("qSolFloor", "qSolFrt"), ("brm", "brc"),
            ("fMrt", "fMrtHum"), ("phiA0", "phiT0"), ("phiA1", "phiT1")]
muts = []
for f in sorted((base / "Verif/Model").glob("*.lean")):
    if f.name == "ShippedSchedule.lean" and not only: continue
    s = f.read_text()
    parts = list(re.finditer(r"^(?:open [^\n]* in\n)?(?:@\[[^\]]*\]\s*)?(?:noncomputable )?def (\S+)", s, re.M))
    cuts = [m.start() for m in re.finditer(r"^(?:/--|/-!|end\b|section\b|namespace\b|variable\b|open\b|noncomputable\b|def\b|structure\b|inductive\b|theorem\b|abbrev\b|instance\b|@\[)", s, re.M)] + [len(s)]
    for m in parts:
        name = m.group(1)
        if only and name not in only: continue
        end = min(c for c in cuts if c > m.end())
        body = s[m.start():end]
        i = body.find(":=")
        j = re.search(r"^\s*\|", body, re.M)
        start = min([x for x in (i, j.start() if j else -1) if x >= 0] or [len(body)])
        t = body[start:]
        cand = []
        def add(k, new, what):
            if new != k.group(0): cand.append((start + k.start(), k.group(0), new, what))
        for a, b in siblings:
            for x, y in ((a, b), (b, a)):
                for k in re.finditer(r"(?<![\w\"])" + x + r"(?![\w'\"])", t): add(k, y, "%s to %s" % (x, y))
        for k in re.finditer(r"if ([^\n]*?) then ([^\n]*?) else ([^\n]*)", t):
            if " then " not in k.group(2) and "if " not in k.group(3) and k.group(3).count("(") == k.group(3).count(")"):
                add(k, "if %s then %s else %s" % (k.group(1), k.group(3), k.group(2)), "branches exchanged")
        for k in re.finditer(r" [+\-] (?:[\w.]+|\([^()\n]*\))(?: \* (?:[\w.]+|\([^()\n]*\)))*(?: [\w.]+| \([^()\n]*\))*", t): add(k, "", "dropped" + k.group(0))
        for k in re.finditer(r" \* (?:[\w.]+|\([^()\n]*\))", t): add(k, "", "dropped" + k.group(0))
        for k in re.finditer(r" / (?:[\w.]+|\([^()\n]*\))", t): add(k, "", "dropped" + k.group(0))
        for k in re.finditer(r" [∧∨] [^∧∨\n]*?(?= ∧| ∨| then|\)|$)", t, re.M): add(k, "", "dropped" + k.group(0))
        for k in re.finditer(r"^ *let _ ← [^\n]*\n", t, re.M): add(k, "", "dropped the check " + k.group(0).strip())
        for k in re.finditer(r"\[([^\[\]\n]+?), ([^\[\]\n]+)\]", t): add(k, "[%s]" % k.group(2), "dropped %s" % k.group(1))
        for k in re.finditer(r"(?<=[ (])([a-z]\w*) (x|y|a|b|c|d|h|k|l|m|n|p|q|r|s|t|u|v|w) (x|y|a|b|c|d|h|k|l|m|n|p|q|r|s|t|u|v|w)(?=[ )\n])", t):
            add(k, "%s %s %s" % (k.group(1), k.group(3), k.group(2)), "arguments of %s exchanged" % k.group(1))
        for k in re.finditer(r"\|([^|\n]+)\|", t): add(k, "(%s)" % k.group(1), "absolute value dropped")
        for k in re.finditer(r"(?<![\w.])1 - (?=[\w(])", t): add(k, "", "1 - dropped")
        for k in re.finditer(r"(?:Real\.)?(exp|sqrt|sin|cos) \(", t): add(k, "(", k.group(1) + " dropped")
        for k in re.finditer(r"(?<![\w])\(-", t): add(k, "(", "sign dropped")
        rng.shuffle(cand)
        for pos, a, b, what in cand[:per]:
            new = body[:pos] + b + body[pos + len(a):]
            lo = body.rfind("\n", 0, pos) + 1
            line = new[lo: new.find("\n", lo)].strip()
            muts.append({"file": str(f.relative_to(base)), "def": name, "old": body, "new": new, "edit": "%s in: %s" % (what[:120], line[:160]), "claim": ""})
rng.shuffle(muts)
json.dump(muts, open(out, "w"), ensure_ascii=False, indent=0)
print(len(muts))
