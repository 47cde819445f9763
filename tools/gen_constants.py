#!/usr/bin/env python3
"""Transcribe the signature constants of /repo/src/types/signatures into lean/Verif/Model/Constants.lean."""
import re, sys
SRC = "/repo/src/types/signatures"
MODULES = ["color_space", "platform", "plugin_type", "profile_class", "stage", "tag", "tag_type", "technology"]
PAT = re.compile(r'^\s*pub const (\w+): Signature = Signature::new\(b"(.{4})"\);')

def camel(s):
    a = s.split("_")
    return a[0] + "".join(x.capitalize() for x in a[1:])

def consts(path, lo=None, hi=None):
    out = []
    for i, l in enumerate(open(path), 1):
        if lo and not lo <= i <= hi:
            continue
        m = PAT.match(l)
        if m:
            out.append((i, m.group(1), m.group(2)))
        elif "Signature::new" in l:
            sys.exit(f"{path}:{i}: not understood: {l}")
    return out

def emit(name, cite, cs):
    print(f"/-- {cite} -/")
    print(f"def {name} : List (String × Signature) := [")
    rows = []
    for _, n, v in cs:
        a = ", ".join(f"0x{ord(c):02x}" for c in v)
        rows.append(f'  ("{n}", .new #v[{a}])  /- {v} -/')
    # the separator goes before the comment
    print("\n".join(r.replace("])  /-", "]),  /-") if i + 1 < len(rows) else r for i, r in enumerate(rows)) + "]")
    print()

print("import Verif.Model.Signature\n")
print("/-!\n# src/types/signatures.rs and src/types/signatures/*.rs\n")
print("Every signature constant, by module.  Generated by tools/gen_constants.py.\n-/\n")
print("namespace Lcms\n\nnamespace Constants\n")
root = [c for c in consts(SRC + ".rs") if not c[1] in ("FORMULA", "SAMPLED", "SEGMENTED")]
emit("root", "src/types/signatures.rs:6-23,33-41", root)
emit("curveSegment", "src/types/signatures.rs:26-32", consts(SRC + ".rs", 26, 32))
for m in MODULES:
    cs = consts(f"{SRC}/{m}.rs")
    emit(camel(m), f"src/types/signatures/{m}.rs:{cs[0][0]}-{cs[-1][0]}", cs)
print("/-- All modules (src/types/signatures.rs:6-41). -/")
print("def all : List (List (String × Signature)) :=\n  [root, curveSegment, " + ", ".join(camel(m) for m in MODULES) + "]\n")
print("end Constants\n\nend Lcms")
