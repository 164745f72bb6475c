#!/usr/bin/env python3
"""Regenerates lean/Verif.lean: one import per module."""
import os
root = os.path.join(os.path.dirname(os.path.abspath(__file__)), "..", "lean")
mods = []
for d, _, fs in os.walk(os.path.join(root, "Verif")):
    for f in fs:
        if f.endswith(".lean"):
            p = os.path.relpath(os.path.join(d, f), root)[:-5]
            mods.append(p.replace(os.sep, "."))
open(os.path.join(root, "Verif.lean"), "w").write("".join("import %s\n" % m for m in sorted(mods)))
