"""Mutation testing of the theorems.

usage: mutate.py MUTATIONS.json DEPS.json RESULTS.jsonl

Each mutation is applied to a scratch copy of lean/, the copy is rebuilt, and every theorem whose
proof breaks is recorded; its proof is then replaced by `sorry` in the scratch copy so that the
modules after it are checked too. A manifest theorem counts as failed if its own proof broke or if
it depends (in the unchanged development, DEPS.json) on a theorem whose proof broke.
"""
import json, os, re, subprocess, sys

BASE = "/tmp/mut/base"      # a built copy of lean/
SCRATCH = "/tmp/mut/lean"
DECL = re.compile(r"^(?:@\[[^\]]*\]\s*)?(?:private |protected |noncomputable )*"
                  r"(theorem|lemma|def|example|instance|abbrev|structure|inductive)\b\s*(\S*)")
STOP = re.compile(r"^(/--|/-!|end\b|namespace\b|section\b|variable\b|open\b|set_option\b|/-)")


def sync():
    os.makedirs(os.path.dirname(SCRATCH), exist_ok=True)
    subprocess.run(["rm", "-rf", SCRATCH], check=True)
    subprocess.run(["cp", "-a", BASE, SCRATCH], check=True)


def build():
    try:
        p = subprocess.run(["nice", "lake", "build"], cwd=SCRATCH, capture_output=True, text=True,
                           timeout=3000)
    except subprocess.TimeoutExpired:
        return False, {"timeout": 1}
    errs = {}
    for m in re.finditer(r"^error: (?:\./)?(Verif[^:\s]*\.lean):(\d+):\d+: (.*)$", p.stdout, re.M):
        errs.setdefault(m.group(1), []).append(int(m.group(2)))
    return p.returncode == 0, errs


def decls(lines):
    """(kind, full name, first line, last line) of the declarations, lines from 1."""
    out, ns, cur = [], [], None
    for n, l in enumerate(lines, 1):
        m = re.match(r"^namespace (\S+)", l)
        if m:
            ns.append(m.group(1))
        elif re.match(r"^end\b", l) and ns:
            ns.pop()
        d = DECL.match(l)
        if d or STOP.match(l):
            if cur:
                out.append(cur[:3] + [n - 1])
            cur = [d.group(1), ".".join(ns + [d.group(2)]), n] if d else None
    if cur:
        out.append(cur[:3] + [len(lines)])
    return out


def sorried(kind, text):
    if kind == "example":
        return ""
    depth, i = 0, 0
    while i < len(text):
        c = text[i]
        if c in "([{⟨":
            depth += 1
        elif c in ")]}⟩":
            depth -= 1
        elif depth == 0 and text.startswith(":=", i):
            return text[:i] + ":= by sorry\n\n"
        elif depth == 0 and text.startswith("\n  | ", i):
            return text[:i] + " := by sorry\n\n"
        i += 1
    raise ValueError(text)


def run(mut, deps):
    sync()
    path = os.path.join(SCRATCH, mut["file"])
    src = open(path).read()
    assert src.count(mut["old"]) == mut.get("count", 1), (mut["id"], src.count(mut["old"]))
    open(path, "w").write(src.replace(mut["old"], mut["new"]))
    failed, note = [], ""
    for _ in range(12):
        ok, errs = build()
        if ok:
            break
        if not errs or "timeout" in errs:
            note = "build stopped: %s" % errs
            break
        progress = False
        for f, ls in errs.items():
            p = os.path.join(SCRATCH, f)
            lines = open(p).read().split("\n")
            ds = decls(lines)
            hit = {}
            for l in ls:
                for d in ds:
                    if d[2] <= l <= d[3]:
                        hit[d[2]] = d
            if f == mut["file"] and not hit:
                note = "model does not compile"
            for d in sorted(hit.values(), key=lambda d: -d[2]):
                if d[0] not in ("theorem", "lemma", "example"):
                    note = "error in %s %s" % (d[0], d[1])
                    continue
                body = "\n".join(lines[d[2] - 1:d[3]]) + "\n"
                lines[d[2] - 1:d[3]] = sorried(d[0], body).split("\n")
                failed.append(d[1] if d[0] != "example" else "example in " + f)
                progress = True
            open(p, "w").write("\n".join(lines))
        if not progress:
            break
    bad = set(failed)
    hit = sorted(t for t, ds in deps.items() if t in bad or bad & set(ds))
    return {"id": mut["id"], "definition": mut["definition"], "edit": mut["edit"],
            "claim": mut["claim"], "failed": failed, "failed_manifest": hit, "note": note}


def main():
    muts = json.load(open(sys.argv[1]))
    deps = json.load(open(sys.argv[2]))
    done = set()
    if os.path.exists(sys.argv[3]):
        done = {json.loads(l)["id"] for l in open(sys.argv[3])}
    for m in muts:
        if m["id"] in done:
            continue
        r = run(m, deps)
        with open(sys.argv[3], "a") as f:
            f.write(json.dumps(r) + "\n")


if __name__ == "__main__":
    main()
