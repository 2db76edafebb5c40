#!/usr/bin/env python3
"""Single source for properties.jsonl, MANIFEST.json and the per-property part of DESIGN.md."""
import json, os, sys
ROOT = os.path.dirname(os.path.dirname(os.path.abspath(__file__)))
P = []
def prop(id, title, statement, quantifier, why, anchors, plan, theorems=(), status=None, note=""):
    P.append(dict(id=id, title=title, statement=statement, quantifier=quantifier, why=why,
                  anchors=list(anchors), plan=plan, theorems=list(theorems),
                  status=status, note=note))
exec(open(os.path.join(ROOT, "tools", "props_data.py")).read())
exec(open(os.path.join(ROOT, "tools", "theorems.py")).read())
for p in P:
    if p["id"] in T:
        th, st, note = T[p["id"]]
        p["theorems"] = ["Dparm." + t for t in th]; p["status"] = st; p["note"] = note
def main():
    with open(os.path.join(ROOT, "properties.jsonl"), "w") as f:
        for p in P:
            f.write(json.dumps({"id": p["id"], "title": p["title"], "statement": p["statement"],
                "quantifier": p["quantifier"], "why_tests_cant": p["why"], "anchors": p["anchors"]}) + "\n")
    claims = []
    for p in P:
        st = p["status"] or ("proved" if p["theorems"] else None)
        if st is None: continue
        claims.append({"property": p["id"], "status": st, "theorems": p["theorems"], "note": p["note"]})
    with open(os.path.join(ROOT, "MANIFEST.json"), "w") as f:
        json.dump({"claims": claims}, f, indent=1); f.write("\n")
    head = open(os.path.join(ROOT, "tools", "design_head.md")).read()
    axp = os.path.join(ROOT, "tools", "axioms.json")
    ax = json.load(open(axp)) if os.path.exists(axp) else {}
    if ax:
        groups = {}
        for t in sorted({t for p in P for t in p["theorems"]}):
            groups.setdefault(", ".join(f"`{a}`" for a in ax.get(t, ["(not asked yet)"])) or "none", []).append(t.replace("Dparm.", ""))
        head += "\n## Axioms of each property theorem\n\nAs printed by `#print axioms` (`tools/axioms.py`).\n\n"
        for k in sorted(groups, key=len):
            head += f"* {k}: " + ", ".join(f"`{t}`" for t in groups[k]) + "\n"
    out = [head, "\n## Properties: what is modelled and how it is proved\n\n"]
    for p in P:
        out.append(f"### {p['id']} {p['title']}\n\n{p['statement']}\n\n*Plan.* {p['plan']}\n\n")
        if p["theorems"]:
            out.append("*Theorems.* " + ", ".join(f"`{t}`" for t in p["theorems"]) + f" ({p['status'] or 'proved'}).")
            out.append((" " + p["note"] if p["note"] else "") + "\n\n")
        else:
            out.append("*Status.* " + (p["status"] or "planned") + (". " + p["note"] if p["note"] else "") + "\n\n")
    open(os.path.join(ROOT, "DESIGN.md"), "w").write("".join(out))
    ids = [p["id"] for p in P]
    assert len(ids) == len(set(ids)), "duplicate ids"
    print(len(P), "properties,", len(claims), "claims")
main()
