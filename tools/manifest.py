#!/usr/bin/env python3
"""Generates MANIFEST.json from the theorem names in lean/Verif/Props and tools/notes.json."""
import glob, json, os, re, collections
here = os.path.dirname(os.path.abspath(__file__)); root = os.path.join(here, "..")
notes = json.load(open(os.path.join(here, "notes.json")))
thms = collections.defaultdict(list)
for f in sorted(glob.glob(os.path.join(root, "lean/Verif/Props/*.lean"))):
    src = open(f).read()
    for m in re.finditer(r"^theorem (C(\d\d\d?)_\w+)", src, re.M):
        ns = re.findall(r"^namespace (\S+)", src[:m.start()], re.M)[-1]      # not nested
        thms["C" + m.group(2)].append(ns + "." + m.group(1))
claims = []
for line in open(os.path.join(root, "properties.jsonl")):
    i = json.loads(line)["id"]
    t = thms.get(i, [])
    n = notes.get(i, {})
    if isinstance(n, str): n = {"note": n}
    st = n.get("status")
    if st is None:
        st = "partial" if (not t or any(x.endswith("_partial") or "_false" in x for x in t)) else "proved"
    claims.append({"property": i, "status": st, "theorems": t,
                   "note": n.get("note", "" if t else "not yet proved")})
json.dump({"claims": claims}, open(os.path.join(root, "MANIFEST.json"), "w"), indent=1, ensure_ascii=False)
print(sum(1 for c in claims if c["theorems"]), "with theorems;", sum(len(c["theorems"]) for c in claims), "theorems;",
      [c["property"] for c in claims if not c["theorems"]])
