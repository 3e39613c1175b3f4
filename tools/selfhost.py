#!/usr/bin/env python3
"""Turn stfx's own configuration header and the four files stfx generated from it into Lean strings.

usage: selfhost.py /repo/src/configuration > Verif/Main/SelfHostData.lean
Line ends are normalised to \\n (the files are checked in with Windows line ends)."""
import sys

SRC = sys.argv[1]
WIDTH = 50


def lit(s):
    out = ""
    for c in s:
        out += {"\n": "\\n", "\t": "\\t", '"': '\\"', "\\": "\\\\"}.get(c, c)
    return 'c!"%s"' % out


def pieces(text):
    for line in text.splitlines(keepends=True):
        while line:
            yield line[:WIDTH]
            line = line[WIDTH:]


print("import Verif.Text")
print("/- Generated by tools/selfhost.py from src/configuration/: do not edit. -/")
print("namespace Stfx.Main.SelfHost")
print("open Stfx")
for name, f in [("header", "config_data.h"), ("enumsCpp", "enums.cpp"), ("enumsH", "enums.h"),
                ("structsCpp", "structs.cpp"), ("structsH", "structs.h")]:
    text = open(SRC + "/" + f, newline="").read().replace("\r\n", "\n")
    print("\n/-- src/configuration/%s -/" % f)
    print("def %s : Str := List.flatten [" % name)
    ps = list(pieces(text))
    print(",\n".join("  " + lit(p) for p in ps) + "]")
print("\nend Stfx.Main.SelfHost")
