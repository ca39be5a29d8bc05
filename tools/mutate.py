"""Runs seeded bugs against the proofs in a scratch copy.

usage: mutate.py mutations.json [scratch]   (list of {"file", "def", "old", "new", "edit", "claim"})
Each mutation is applied to a copy of /verif/lean in /tmp/mut, the project is rebuilt, and one line is appended to
/verif/seeded/LOG.jsonl with the theorems that failed (or could not be built because something they use failed).
"""
import json, os, pathlib, re, shutil, signal, subprocess, sys
root = pathlib.Path("/verif")
scratch = pathlib.Path(sys.argv[2] if len(sys.argv) > 2 else "/tmp/mut")
src = root / "lean"
def sync():
    shutil.rmtree(scratch / "lean", ignore_errors=True)
    subprocess.run(["cp", "-a", str(scratch / "base"), str(scratch / "lean")], check=True)
# a snapshot of the project, so that work on /verif can go on
scratch.mkdir(exist_ok=True)
shutil.rmtree(scratch / "base", ignore_errors=True)
subprocess.run(["cp", "-a", str(src), str(scratch / "base")], check=True)
def decl_at(path, line):
    lines = path.read_text().splitlines()
    for k in range(min(line, len(lines)) - 1, -1, -1):
        m = re.match(r"(?:noncomputable |private |@\[\w+\] )*(theorem|def|lemma|example|instance|structure)\s*(\S*)", lines[k])
        if m:
            return m.group(2) if m.group(1) != "example" else "example@%s:%d" % (path.name, k + 1)
    return "?"
props = {json.loads(l)["id"]: json.loads(l) for l in open(root / "properties.jsonl")}
claims = {c["property"]: [t.split(".")[-1] for t in c["theorems"]] for c in json.load(open(root / "MANIFEST.json"))["claims"]}
where = {}
for f in (src / "Verif").rglob("*.lean"):
    for t in re.findall(r"^theorem\s+(\S+)", f.read_text(), re.M):
        where[t] = str(f.relative_to(src))[:-5].replace("/", ".")
muts = json.load(open(sys.argv[1]))
for mu in muts:
    sync()
    p = scratch / "lean" / mu["file"]
    s = p.read_text()
    n = s.count(mu["old"])
    if n != 1:
        print("SKIP (matches %d): %s" % (n, mu["edit"])); continue
    p.write_text(s.replace(mu["old"], mu["new"]))
    # first the modules of the claim; the whole project only if those still build
    mods = sorted({where[t] for t in claims.get((mu["claim"].split() or ["-"])[0].rstrip(":"), []) if t in where})
    if mu["claim"]:
        for goal in ([mods] if mods else []) + [[]]:
            r = subprocess.run(["lake", "build"] + goal, cwd=scratch / "lean", capture_output=True, text=True)
            out = r.stdout + r.stderr
            if "error: Verif/" in out: break
    else:
        # no claim named: stop at the first module that fails
        r = subprocess.Popen(["lake", "build"], cwd=scratch / "lean", stdout=subprocess.PIPE, stderr=subprocess.STDOUT, text=True, start_new_session=True)
        out, stop = "", False
        for line in r.stdout:
            out += line
            if "error: Verif/" in line: stop = True
            if stop and re.match(r"[✔✖⚠ℹ] |error: build failed", line) and "error: Verif/" in out: break
        try: os.killpg(r.pid, signal.SIGKILL)
        except ProcessLookupError: pass
        r.wait()
    if "error: " + mu["file"] in out:
        print("INVALID |", mu["def"], "|", mu["edit"], "|", re.findall(r"error: .*", out)[:2], flush=True); continue
    failed = []
    for m in re.finditer(r"error: (Verif/\S+?\.lean):(\d+):", out):
        d = decl_at(scratch / "lean" / m.group(1), int(m.group(2)))
        if d not in failed: failed.append(d)
    bad_mods = set(m.replace("/", ".") for m in re.findall(r"error: (Verif/\S+?)\.lean:", out))
    # modules that could not be built because they import a failed one
    imports = {}
    for f in (scratch / "lean" / "Verif").rglob("*.lean"):
        name = str(f.relative_to(scratch / "lean"))[:-5].replace("/", ".")
        imports[name] = re.findall(r"^import (Verif\.\S+)", f.read_text(), re.M)
    changed = True
    blocked = set()
    while changed:
        changed = False
        for m, im in imports.items():
            if m not in blocked and any(i in bad_mods or i in blocked for i in im):
                blocked.add(m); changed = True
    # theorems of the same file whose proof mentions a failed one (Lean goes on after an error as if the lemma held)
    body = {}
    for f in (scratch / "lean" / "Verif").rglob("*.lean"):
        for b in re.split(r"\n(?=(?:noncomputable |private |@\[\w+\] )*(?:theorem|def|lemma|example|instance|structure)\b)", f.read_text()):
            m = re.match(r"(?:noncomputable |private |@\[\w+\] )*(?:theorem|lemma)\s+(\S+)", b)
            if m: body[m.group(1)] = set(re.findall(r"[\w.']+", b))
    via = set(failed)
    changed = True
    while changed:
        changed = False
        for t, ws in body.items():
            if t not in via and ws & via:
                via.add(t); changed = True
    if not mu["claim"]:
        hit = [c for c, ths in claims.items() if any(t in via for t in ths)] or [c for c, ths in claims.items() if any(where.get(t) in blocked for t in ths)]
        mu["claim"] = hit[0] if hit else "-"
    target = mu["claim"].split()[0].rstrip(":")
    ths = claims.get(target, [])
    direct = [t for t in ths if t in failed]
    indirect = [t for t in ths if t not in failed and (where.get(t) in blocked or t in via)]
    rec = {"definition": mu["def"], "edit": mu["edit"], "claim": mu["claim"], "theorems_failed": failed[:12],
           "claim_theorems_failed": direct, "claim_theorems_blocked": indirect, "tightened": mu.get("tightened", [])}
    verdict = "KILLED" if (direct or indirect) else ("killed elsewhere" if failed else "SURVIVED")
    if verdict == "SURVIVED" and "Build completed successfully" not in out: verdict = "INCOMPLETE"
    print(verdict, "|", mu["def"], "|", mu["edit"], "|", target, "|", failed[:6], "| blocked:", indirect[:4], flush=True)
    rec["result"] = verdict.lower()
    with open(scratch / "results.jsonl", "a") as f: f.write(json.dumps(rec, ensure_ascii=False) + "\n")
