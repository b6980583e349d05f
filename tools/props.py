# Single source for /verif/properties.jsonl and /verif/MANIFEST.json.
# P(id, title, statement, quantifier, why_tests_cant, anchors)
# M(id, status, theorems, note)
import json, os
PROPS, MAN = [], []
def P(id, title, statement, quantifier, why, anchors):
    PROPS.append(dict(id=id, title=title, statement=statement, quantifier=quantifier,
                      why_tests_cant=why, anchors=anchors))
def M(id, status, theorems, note):
    MAN.append(dict(property=id, status=status, theorems=theorems, note=note))
def write():
    root = os.path.dirname(os.path.dirname(os.path.abspath(__file__)))
    ids = [p["id"] for p in PROPS]
    assert len(ids) == len(set(ids)), "duplicate property id"
    with open(os.path.join(root, "properties.jsonl"), "w") as f:
        for p in PROPS:
            f.write(json.dumps(p, ensure_ascii=False) + "\n")
    if MAN:
        mids = [m["property"] for m in MAN]
        assert len(mids) == len(set(mids)) and set(mids) <= set(ids), (set(mids) - set(ids))
        miss = [i for i in ids if i not in mids]
        if miss: print("no manifest entry:", miss)
        with open(os.path.join(root, "MANIFEST.json"), "w") as f:
            json.dump({"claims": MAN}, f, indent=1, ensure_ascii=False)
            f.write("\n")
