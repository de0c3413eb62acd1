#!/usr/bin/env python3
"""Write lean/Verif/FloatData.lean: the YAML and URDF files of /repo/test as Lean terms (input of FloatTests2)."""
import re, pathlib
import xml.etree.ElementTree as ET
REPO = pathlib.Path("/repo/test")
OUT = pathlib.Path(__file__).resolve().parent.parent / "lean" / "Verif" / "FloatData.lean"

def lines(text):
    r = []
    for l in text.splitlines():
        l = re.sub(r"(^|\s)#.*$", "", l).rstrip()
        if l.strip():
            r.append((len(l) - len(l.lstrip()), l.strip()))
    return r

def scalar(s):
    s = s.strip()
    if s in ("", "~", "null"): return None
    if s in ("true", "false"): return s == "true"
    if re.fullmatch(r"[-+]?\d+", s): return int(s)
    if re.fullmatch(r"[-+]?(\d+\.\d*|\.\d+)([eE][-+]?\d+)?|[-+]?\d+[eE][-+]?\d+", s): return float(s)
    return s.strip("'\"")

def parse(ls, i, ind):
    """block at indentation ind starting at line i: (value, next)"""
    if ls[i][1].startswith("- ") or ls[i][1] == "-":
        out = []
        while i < len(ls) and ls[i][0] == ind and (ls[i][1].startswith("- ") or ls[i][1] == "-"):
            rest = ls[i][1][1:].strip()
            off = ind + len(ls[i][1]) - len(rest)
            if not rest:
                v, i = parse(ls, i + 1, ls[i + 1][0])
            elif re.match(r"[\w]+:(\s|$)", rest):
                ls[i] = (off, rest)
                v, i = parse(ls, i, off)
            else:
                v = scalar(rest); i += 1
            out.append(v)
        return out, i
    out = {}
    while i < len(ls) and ls[i][0] == ind and not ls[i][1].startswith("- "):
        k, rest = re.match(r"([\w]+):\s*(.*)$", ls[i][1]).groups()
        if rest:
            out[k] = scalar(rest) if not rest.startswith("[") else [scalar(x) for x in rest.strip("[]").split(",")]
            i += 1
        elif i + 1 < len(ls) and (ls[i + 1][0] > ind or (ls[i + 1][0] == ind and ls[i + 1][1].startswith("- "))):
            out[k], i = parse(ls, i + 1, ls[i + 1][0])
        else:
            out[k] = None; i += 1
    return out, i

def num(x): return f"({x!r})" if x < 0 or str(x).startswith("-") else repr(x)
def q(s): return '"' + str(s).replace("\\", "\\\\").replace('"', '\\"') + '"'
def term(v):
    if v is None: return ".null"
    if isinstance(v, bool): return f".bool {str(v).lower()}"
    if isinstance(v, int): return f".int {num(v)}"
    if isinstance(v, float): return f".num {num(v)}"
    if isinstance(v, str): return f".str {q(v)}"
    if isinstance(v, list): return ".list [" + ", ".join(term(x) for x in v) + "]"
    return ".dict [" + ", ".join(f"({q(k)}, {term(x)})" for k, x in v.items()) + "]"

def wrap(s, width=140):
    out, cur = [], ""
    for tok in re.split(r"(?<=, )", s):
        if len(cur) + len(tok) > width: out.append(cur.rstrip()); cur = "  "
        cur += tok
    out.append(cur)
    return "\n".join(out)

def vec(s): 
    x = [float(t) for t in s.split()]
    return "⟨" + ", ".join(repr(t) for t in x) + "⟩"
def opt(x): return "none" if x is None else f"some {x}"
def urdf(path):
    r = ET.parse(path).getroot()
    L = [f'{{ name := {q(l.get("name"))} }}' for l in r.findall("link")]
    assert not r.findall("link/inertial")
    J = []
    for j in r.findall("joint"):
        o, a, li = j.find("origin"), j.find("axis"), j.find("limit")
        f = [f'name := {q(j.get("name"))}', f'jointType := {q(j.get("type"))}', f'parent := {q(j.find("parent").get("link"))}',
             f'child := {q(j.find("child").get("link"))}']
        if o is not None:
            f.append(f'origin := some ⟨{opt(vec(o.get("xyz")) if o.get("xyz") else None)}, {opt(vec(o.get("rpy")) if o.get("rpy") else None)}⟩')
        # urdf_parser_py leaves the axis of a joint without <axis> element empty
        if a is not None: f.append(f'axis := some {vec(a.get("xyz"))}')
        if li is not None:
            f.append("limit := some ⟨" + ", ".join(opt(f"({float(li.get(k))!r})" if li.get(k) else None) for k in ("lower", "upper", "velocity", "effort")) + "⟩")
        J.append("{ " + ", ".join(f) + " }")
    return "{ links := [" + ", ".join(L) + "],\n    joints := [\n      " + ",\n      ".join(J) + "] }"

out = ['''import Verif.Model.RobotRaconteur
import Verif.Model.Urdf

/-!
# Test data (generated by tools/testdata.py from the YAML and URDF files in /repo/test)
-/
set_option autoImplicit false

namespace FloatTests
''']
for n, f in [("fanucYaml", "FANUC_m10ia_robot_default_config.yml"), ("abb1200Yaml", "abb_1200_5_90_robot_default_config.yml"),
             ("rp260Yaml", "rp260_robot_default_config.yml"), ("gripperYaml", "sawyer_electric_gripper_default_config.yml"),
             ("sawyerYaml", "sawyer_robot_default_config.yml"), ("sawyerToolYaml", "sawyer_robot_with_electric_gripper_config.yml"),
             ("ur5eYaml", "ur5e_robot_default_config.yml")]:
    ls = lines((REPO / f).read_text())
    v, i = parse(ls, 0, 0)
    assert i == len(ls), (f, i, ls[i])
    out.append(f"/-- `{f}` -/\ndef {n} : Yaml Float :=\n  " + wrap(term(v)) + "\n")
for n, f in [("irb6640Urdf", "irb6640_180_255_nogeom.urdf"), ("irb6640TwistUrdf", "irb6640_180_255_nogeom_twist.urdf"), ("sda10fUrdf", "sda10f_nogeom.urdf")]:
    out.append(f"/-- `{f}` -/\ndef {n} : Urdf Float :=\n  " + urdf(REPO / f) + "\n")
out.append("end FloatTests\n")
OUT.write_text("\n".join(out))
