#!/usr/bin/env python3
"""Compares the texts in lean/Verif/Source/Text.lean with the files of the repository.

Usage: check_source.py [repository]   (default: /repo)

Each text is a list of lines and follows a comment that names its file. The script fails if a text differs from its
file, or if a Rust file of the repository has no text.
"""
import pathlib
import re
import sys

repo = pathlib.Path(sys.argv[1] if len(sys.argv) > 1 else "/repo")
text = (pathlib.Path(__file__).parent.parent / "lean/Verif/Source/Text.lean").read_text()
found = []
for path, body in re.findall(r'/-- /repo/(src/\S+\.rs) -/\ndef \w+ : List String := \[\n(.*?)\]\n\n', text, re.S):
    lines = []
    for line in body.split("\n"):
        m = re.fullmatch(r'  (?:"([^"\\]*)"|r(#+)"(.*)"\2),?', line)
        if m is None or (m.group(2) and '"' + m.group(2) in m.group(3)):
            sys.exit("not understood: " + line)
        lines.append(m.group(1) if m.group(2) is None else m.group(3))
    found.append((path, "\n".join(lines)))
bad = 0
for path, body in found:
    same = (repo / path).read_text() == body
    print(("same      " if same else "DIFFERENT ") + path)
    bad += not same
for f in sorted((repo / "src").rglob("*.rs")):
    path = str(f.relative_to(repo))
    if path not in [p for p, _ in found]:
        print("MISSING   " + path)
        bad += 1
sys.exit(1 if bad else 0)
