#!/usr/bin/env python3
"""Mutation testing of the model.

    tools/mutate.py deps                 write the theorem dependency table of the unmodified build
    tools/mutate.py run [ID ...]         try the mutants of seeded/mutants.py (all, or the given ones)

Everything is built in a scratch copy (MUT, default /tmp/mut) and never in this repository.  A mutant
is one or more text replacements in the model files.  After each one the scratch copy is rebuilt and
every declaration with an error is recorded.  Lake does not build the modules that import a failed one,
so the claim theorems (Cnn_*) that fail are those with an error of their own plus those whose proof
uses, through any number of steps, a declaration that failed.  The concrete test table Tests.lean is
left out, so only the proofs count.  Results are appended to seeded/LOG.jsonl.
"""
import json, os, re, shutil, subprocess, sys, time
VERIF = os.path.dirname(os.path.dirname(os.path.abspath(__file__)))
MUT = os.environ.get("MUT", "/tmp/mut")
BASE, WORK = MUT + "/base", MUT + "/work"
DECL = re.compile(r"^\s*(?:@\[[^\]]*\]\s*)?(?:private\s+|protected\s+)?(theorem|lemma|def|abbrev|instance|example|inductive|structure)\b\s*([^\s:({\[]*)")

def sh(cmd, cwd, timeout=3000):
    p = subprocess.run(cmd, shell=True, cwd=cwd, stdout=subprocess.PIPE, stderr=subprocess.STDOUT, text=True, timeout=timeout)
    return p.returncode, p.stdout

def prepare():
    if os.path.exists(BASE): shutil.rmtree(BASE)
    os.makedirs(MUT, exist_ok=True)
    subprocess.check_call(["cp", "-a", VERIF + "/lean", BASE])
    f = BASE + "/Verif.lean"
    s = open(f).read().replace("import Verif.Tests\n", "").replace("import Verif.TestsReadme\n", "")
    open(f, "w").write(s)
    rc, out = sh("lake build", BASE)
    assert rc == 0, out[-2000:]

DEPS = r'''
import Lean
import Verif
open Lean
run_meta do
  let env ← getEnv
  let ours := fun (n : Name) => match env.getModuleIdxFor? n with
    | some i => (`Verif).isPrefixOf (env.header.moduleNames[i.toNat]!)
    | none => false
  let mut out : String := ""
  for (n, ci) in env.constants.toList do
    if ours n then
      let used := ci.type.getUsedConstants ++
        (match ci.value? (allowOpaque := true) with | some v => v.getUsedConstants | none => #[])
      out := out ++ toString n ++ "\t" ++ " ".intercalate ((used.filter ours).toList.map toString) ++ "\n"
  IO.FS.writeFile "@OUT@" out
'''

def deps():
    prepare()
    open(MUT + "/deps.lean", "w").write(DEPS.replace("@OUT@", MUT + "/uses.tsv"))
    rc, out = sh("lake env lean ../deps.lean", BASE)
    assert rc == 0, out[-2000:]
    uses = {}
    for line in open(MUT + "/uses.tsv"):
        n, ds = line.rstrip("\n").split("\t")
        uses[n] = ds.split(" ") if ds else []
    with open(MUT + "/deps.tsv", "w") as o:
        for n in uses:
            t = n.split(".")[-1]
            if not re.match(r"C\d+_.", t): continue
            seen, todo = {n}, [n]
            while todo:
                for m in uses.get(todo.pop(), ()):
                    if m not in seen:
                        seen.add(m)
                        todo.append(m)
            o.write(t + "\t" + " ".join(sorted(seen)) + "\n")

def load_deps():
    by_last = {}
    for line in open(MUT + "/deps.tsv"):
        t, ds = line.rstrip("\n").split("\t")
        for d in ds.split(" "):
            parts = d.split(".")
            for i in range(1, min(4, len(parts)) + 1):
                by_last.setdefault(".".join(parts[-i:]), set()).add(t)
    return by_last

def decl_at(path, line):
    lines = open(path).read().split("\n")
    last_thm = None
    found = None
    for i, l in enumerate(lines[:line]):
        m = DECL.match(l)
        if m:
            kind, name = m.groups()
            if kind == "example":
                found = "example after " + (last_thm or "?")
            else:
                found = name
                last_thm = name
    return found or "?"

def block_at(path, line):
    """The names of the declarations of the mutual block around this line: the kernel knows them
    as one, so that the table of dependencies may name any of them."""
    lines = open(path).read().split("\n")
    start = None
    for i in range(line - 1, -1, -1):
        if lines[i].startswith("mutual"): start = i; break
        if lines[i] == "end": return []
    if start is None: return []
    names = []
    for l in lines[start:]:
        if l == "end": break
        m = DECL.match(l)
        if m and m.group(2): names.append(m.group(2))
    return names

def stub(path, line):
    """Replace the proof of the declaration at this line by sorry (scratch copy only), or remove an
    example.  Returns its name, or None if it is not a theorem."""
    lines = open(path).read().split("\n")
    start = None
    for i in range(line - 1, -1, -1):
        m = DECL.match(lines[i])
        if m and (lines[i][0] not in " \t" or True):
            start = i; kind, name = m.groups(); break
    if start is None: return None
    end = len(lines)
    for j in range(start + 1, len(lines)):
        l = lines[j]
        if DECL.match(l) and not l.startswith(" ") or l == "end" or l.startswith(("/-", "end ", "namespace ", "section", "open ", "variable", "set_option", "@[")) or l.startswith("private "):
            end = j; break
    text = "\n".join(lines[start:end])
    if kind == "example":
        new = ""
    elif kind in ("theorem", "lemma"):
        depth = 0; pos = None
        for k, c in enumerate(text):
            if c in "([{⟨": depth += 1
            elif c in ")]}⟩": depth -= 1
            elif depth == 0 and text.startswith(":=", k): pos = k; break
            elif depth == 0 and c == "|" and text[:k].rstrip(" ").endswith("\n"): pos = k; break
        if pos is None: return None
        new = text[:pos] + ":= by sorry\n"
    else:
        return None
    # keep the number of lines, so that later error positions still fit
    new += "\n" * (text.count("\n") - new.count("\n"))
    lines[start:end] = new.split("\n")
    open(path, "w").write("\n".join(lines))
    return name or "example"

SHOW = """import Verif.Cmp
import Verif.Cmd
import Verif.Wasm
import Verif.Kit
import Verif.Stderr
import Verif.MessageCmp
import Verif.MessageKit
import Verif.MessageDirect
import Verif.Server
import Verif.Utf8
import Verif.Page
import Verif.Serve
import Verif.Bytes
import Verif.BytesDirect
import Verif.FloatText
import Verif.TimeBytes
import Verif.JsonBytes
import Verif.TimestampBytes
open EDTF
class Out (a : Type) where out : a → String
instance (priority := low) {a : Type} [Repr a] : Out a := ⟨fun x => (repr x).pretty 1000000⟩
instance : Out (Res EDTFDate) := ⟨fun r => match r with
  | .ok d => String.ofList d.marshal
  | .err e => "error " ++ (repr e).pretty 1000000
  | .panic => "panic"⟩
instance : Out Str := ⟨fun s => String.ofList s⟩
instance : Out (Told EDTFDate) := ⟨fun r => match r with
  | .ok d => String.ofList d.marshal
  | .fault f => "error " ++ String.ofList f.text
  | .panic => "panic"⟩
"""

def evaluate(expr, d):
    open(MUT + "/w.lean", "w").write(SHOW + "#eval IO.println (Out.out (%s))\n" % expr)
    rc, out = sh("lake build Verif.Cmp Verif.Cmd Verif.Wasm Verif.Kit Verif.Stderr Verif.MessageCmp Verif.MessageKit Verif.MessageDirect Verif.Server Verif.Utf8 Verif.Page Verif.Serve Verif.Bytes Verif.BytesDirect Verif.FloatText Verif.TimeBytes Verif.JsonBytes Verif.TimestampBytes >/dev/null 2>&1; lake env lean ../w.lean", d, 600)
    return out.strip()

def difference(a, b):
    """The two texts, cut down to the neighbourhood of their first difference."""
    if a == b or (len(a) < 160 and len(b) < 160): return a, b
    i = 0
    while i < min(len(a), len(b)) and a[i] == b[i]: i += 1
    i = max(0, i - 60)
    cut = lambda t: ("…" if i else "") + t[i:i + 160] + ("…" if len(t) > i + 160 else "")
    return cut(a), cut(b)

def run(ids, deep):
    sys.path.insert(0, VERIF + "/seeded")
    sys.dont_write_bytecode = True
    from mutants import MUTANTS, TIGHTENED
    table = load_deps()
    res_path = VERIF + "/seeded/LOG.jsonl"
    for m in MUTANTS:
        if ids and m["id"] not in ids: continue
        t0 = time.time()
        if os.path.exists(WORK): shutil.rmtree(WORK)
        subprocess.check_call(["cp", "-a", BASE, WORK])
        bad = None
        for (f, old, new) in m["edits"]:
            p = WORK + "/Verif/" + f
            s = open(p).read()
            if s.count(old) < 1: bad = "text not found in %s: %r" % (f, old); break
            if s.count(old) > 1 and not m.get("all"): bad = "text not unique in %s: %r" % (f, old); break
            open(p, "w").write(s.replace(old, new))
        r = {"id": m["id"], "definition": m["definition"], "what": m["what"],
             "edit": [{"file": f, "old": o, "new": n} for (f, o, n) in m["edits"]], "claims_to_break": m["claim"]}
        if bad:
            r["outcome"] = "not applied"; r["why"] = bad
        else:
            failed = {}
            claims = set()
            own = set()
            rc0 = None
            for step in range(12):
                try:
                    rc, out = sh("lake build", WORK)
                except subprocess.TimeoutExpired:
                    rc, out = 1, ""
                    r["timeout"] = True
                if rc0 is None: rc0 = rc
                if "exited with code 137" in out and not re.search(r"^error: (?:\./)?Verif/", out, re.M):
                    # out of memory, the messages are lost: ask for those that came before
                    for mod in re.findall(r"^- Verif\.([A-Za-z0-9]+)", out, re.M):
                        try: o = sh("ulimit -v 14000000; timeout 120 stdbuf -oL lake env lean Verif/%s.lean" % mod, WORK)[1]
                        except subprocess.TimeoutExpired: o = ""
                        out += "".join("\nerror: %s" % l for l in re.findall(r"^Verif/[A-Za-z0-9]+\.lean:\d+:\d+: error.*", o, re.M) ).replace(": error:", ":")
                errs = sorted({(mm.group(1), int(mm.group(2))) for mm in
                    re.finditer(r"^error: (?:\./)?Verif/([A-Za-z0-9]+)\.lean:(\d+):\d+:", out, re.M)})
                named = {}
                for mod, line in errs:
                    name = decl_at(WORK + "/Verif/%s.lean" % mod, line)
                    failed.setdefault(mod, [])
                    if name not in failed[mod]: failed[mod].append(name)
                    named.setdefault((mod, name), line)
                    for other in block_at(WORK + "/Verif/%s.lean" % mod, line): claims |= table.get(other, set())
                for mod, names in failed.items():
                    for n in names:
                        if n.startswith("example after "): continue
                        claims |= table.get(n, set())
                        if re.match(r"C\d+_", n): claims.add(n); own.add(n)
                if rc == 0 or any(c.split("_")[0] in m["claim"] for c in (own if deep else claims)): break
                # the claim was not reached: assume what failed and go on
                ok = bool(named)
                for (mod, name), line in sorted(named.items(), key=lambda x: -x[1]):
                    if stub(WORK + "/Verif/%s.lean" % mod, line) is None: ok = False
                if not ok: r["stopped"] = True; break
            r["failed_declarations"] = failed
            r["theorems_failed"] = sorted(claims)
            r["tightened"] = TIGHTENED.get(m["id"], [])
            r["outcome"] = "survived" if rc0 == 0 else ("caught" if claims else "examples only")
            if m.get("witness"):
                r["witness"] = m["witness"]
                r["before"], r["after"] = difference(evaluate(m["witness"], BASE), evaluate(m["witness"], WORK))
        r["seconds"] = round(time.time() - t0)
        if r["outcome"] != "not applied":
          with open(res_path, "a") as f: f.write(json.dumps(r, ensure_ascii=False) + "\n")
        hit = [c for c in r.get("theorems_failed", []) if c.split("_")[0] in m["claim"]]
        same = "SAME OUTPUT" if r.get("before") == r.get("after") else ""
        print(m["id"], r["outcome"], "target" if hit else "NO TARGET", same, r.get("failed_declarations"), len(r.get("theorems_failed", [])), r["seconds"], r.get("why", ""), flush=True)

if __name__ == "__main__":
    if sys.argv[1] == "deps": deps()
    elif sys.argv[1] in ("run", "deep"): run(set(sys.argv[2:]), sys.argv[1] == "deep")
