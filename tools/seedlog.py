"""Writes /verif/seeded/LOG.jsonl from the results of mutate.py and the remarks on survivors."""
import json, os
res = [json.loads(l) for l in open("/tmp/mut/results.jsonl")]
rem = json.load(open("/tmp/mut/remarks.json")) if os.path.exists("/tmp/mut/remarks.json") else {}
out = open("/verif/seeded/LOG.jsonl", "w")
for r in res:
    k = r["definition"] + "|" + r["edit"]
    o = {"definition": r["definition"], "file": "lean/" + r["file"], "edit": r["edit"] + ": `" + r["old"] + "` -> `" + r["new"] + "`",
         "claim_broken": r["breaks"], "theorems_failed": r["failed_claims"], "lemmas_failed": [d for d in r["failed_decls"] if d not in r["failed_claims"]],
         "theorems_tightened": []}
    o.update(rem.get(k, {}))
    if not o["theorems_failed"] and "remark" not in o:
        print("NO REMARK", k)
    out.write(json.dumps(o) + "\n")
# generated edits: every survivor with a remark, and the others with the first declaration that failed
seen = set()
arem = json.load(open("/tmp/mut/auto_remarks.json")) if os.path.exists("/tmp/mut/auto_remarks.json") else {}
for f in ["/tmp/mut/auto0.jsonl", "/tmp/mut/auto8.jsonl"]:
    for r in (map(json.loads, open(f)) if os.path.exists(f) else []):
        if r["result"] == "invalid" or (r["file"], r["old"], r["new"]) in seen:
            continue
        seen.add((r["file"], r["old"], r["new"]))
        first = [n for k, n, _ in r["fails"] if k != "example"]
        o = {"definition": r["definition"], "file": "lean/" + r["file"], "edit": "generated, " + r["edit"] + ": `" + r["old"].strip() + "` -> `" + r["new"].strip() + "`",
             "claim_broken": "not looked for (generated edit)", "theorems_failed": [n for n in first if n[:1] == "C" and n[1:3].isdigit()],
             "lemmas_failed": [n for n in first if not (n[:1] == "C" and n[1:3].isdigit())], "theorems_tightened": []}
        if r["result"] == "killed":
            o["remark"] = "stopped at the first declaration that failed"
        k = r["definition"] + "|" + r["new"].strip()
        o.update(arem.get(k, {}))
        if r["result"] != "killed" and k not in arem:
            print("AUTO NO REMARK", json.dumps(k), r["old"].strip(), r["edit"])
        out.write(json.dumps(o) + "\n")
