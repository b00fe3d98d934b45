#!/usr/bin/env python3
"""Transcribe /repo/pr2_mechanism_model/pr2.urdf into lean/Verif/Model/Pr2Urdf.lean.

All children of the root element are kept, in order.  `joint` and `transmission` elements are kept with all attributes, texts and sub-elements;
of the others (link, gazebo, material), which nothing modelled reads, tag and name attribute are kept."""
import xml.etree.ElementTree as ET, re
src = open('/repo/pr2_mechanism_model/pr2.urdf').read()
src = re.sub(r'<(/?)(\w+):(\w+)', r'<\1\2_\3', src)
src = re.sub(r'xmlns:\w+="[^"]*"', '', src)
root = ET.fromstring(src)
q = lambda s: '"' + s.replace('\\', '\\\\').replace('"', '\\"') + '"'
def node(e):
    attrs = '[' + ', '.join(f'({q(k)}, {q(v)})' for k, v in e.attrib.items()) + ']'
    t = (e.text or '').strip()
    text = f'(some {q(t)})' if t else 'none'
    return f'.node {q(e.tag)} {attrs} {text} [' + ', '.join(node(c) for c in e) + ']'
def short(e):
    n = e.get('name')
    return f'.node {q(e.tag)} [' + (f'("name", {q(n)})' if n else '') + '] none []'
kids = [node(c) if c.tag in ('joint', 'transmission') else short(c) for c in root]
n = len(src.splitlines())
chunks = [kids[i:i + 25] for i in range(0, len(kids), 25)]
out = ['import Verif.Model.Xml', '', '/-!', '# The robot description shipped with the code: `pr2_mechanism_model/pr2.urdf`', '',
       'Generated by tools/mkurdf.py.  All children of the root element, in order; of `link`, `gazebo` and `material`, which nothing modelled reads, only tag and name.', '-/', '', 'namespace Pr2', '']
for i, c in enumerate(chunks):
    out.append(f'/-- Children {25 * i} to {25 * i + len(c) - 1} of the root (pr2.urdf:1-{n}). -/')
    out.append(f'def pr2Part{i} : List Xml := [')
    out.append(',\n'.join('  ' + k for k in c) + ']')
    out.append('')
out.append(f'/-- The document (pr2.urdf:1-{n}). -/')
out.append('def pr2Urdf : Xml := .node "robot" [("name", "pr2")] none (' + ' ++ '.join(f'pr2Part{i}' for i in range(len(chunks))) + ')')
out += ['', 'end Pr2', '']
assert root.tag == 'robot' and root.get('name') == 'pr2'
open('/verif/lean/Verif/Model/Pr2Urdf.lean', 'w').write('\n'.join(out))
