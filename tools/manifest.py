#!/usr/bin/env python3
"""Regenerate MANIFEST.json from the property theorems (names starting with Cnn_) in lean/Verif/Props."""
import re, json, glob, os
root = os.path.dirname(os.path.dirname(os.path.abspath(__file__)))
notes = {}
np = os.path.join(root, "tools", "notes.json")
if os.path.exists(np):
    notes = json.load(open(np))
thms = {}
for f in sorted(glob.glob(root + "/lean/Verif/Props/*.lean")):
    ns = []
    for line in open(f):
        m = re.match(r"namespace (\S+)", line)
        if m: ns.append(m.group(1)); continue
        m = re.match(r"end (\S+)", line)
        if m and ns and ns[-1] == m.group(1): ns.pop(); continue
        m = re.match(r"theorem ((C\d\d+)_\S+)", line)
        if m: thms.setdefault(m.group(2), []).append(".".join(ns + [m.group(1)]))
docs = {}
for f in sorted(glob.glob(root + "/lean/Verif/Props/*.lean")):
    for m in re.finditer(r"/--((?:(?!-/).)*)-/\s*theorem (C\d\d\w*)", open(f).read(), re.S):
        docs[m.group(2)] = re.sub(r"\s+", " ", m.group(1)).replace("**", "").strip()

def auto(ts):
    """A note from the doc comments: what the partial theorems miss, and what is false of the code."""
    miss, bad = [], []
    for t in ts:
        n = t.split(".")[-1]
        d = docs.get(n, "")
        if "_violated" in n:
            bad.append(n + ": " + re.sub(r"^C\d\d \(violated\)\.\s*", "", d))
        elif "Missing" in d:
            miss.append(n + ": " + d[d.index("Missing"):])
    return " ".join((["Proved in part."] if miss else []) + miss + (["False of the code, with a witness:"] if bad else []) + bad)

claims = []
for line in open(root + "/properties.jsonl"):
    p = json.loads(line)["id"]
    n = notes.get(p, {})
    if isinstance(n, str): n = {"note": n}
    ts = thms.get(p, [])
    if not ts:
        if n.get("status"): claims.append({"property": p, "status": n["status"], "theorems": [], "note": n.get("note", "")})
        continue
    st = n.get("status") or ("partial" if any(t.endswith("_partial") or "_violated" in t for t in ts) else "proved")
    claims.append({"property": p, "status": st, "theorems": ts, "note": n.get("note", "") or auto(ts)})
json.dump({"claims": claims}, open(root + "/MANIFEST.json", "w"), indent=1, ensure_ascii=False)
have = {c["property"] for c in claims}
missing = [json.loads(l)["id"] for l in open(root + "/properties.jsonl") if json.loads(l)["id"] not in have]
extra = sorted(set(thms) - {json.loads(l)["id"] for l in open(root + "/properties.jsonl")})
print(len(claims), "claims; without theorems:", missing, "; not in properties:", extra)
