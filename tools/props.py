"""Helpers to edit /verif/properties.jsonl: from props import P, setp, new, save."""
import json, os
F = os.path.join(os.path.dirname(__file__), '..', 'properties.jsonl')
P = [json.loads(l) for l in open(F)]
M = "pyogp/lib/base/message/"

def setp(pid, **kw):
    """Change fields of a property."""
    d = next(x for x in P if x['id'] == pid)
    for k, v in kw.items():
        assert k in d
        d[k] = v

def new(title, statement, quantifier, why, anchors):
    """Append a property."""
    P.append(dict(id='C%02d' % (len(P) + 1), title=title, statement=statement, quantifier=quantifier, why_tests_cant=why, anchors=anchors))

def save():
    with open(F, 'w') as f:
        for x in P:
            f.write(json.dumps(x, ensure_ascii=False) + '\n')
