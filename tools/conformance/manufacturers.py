"""Compares the table of manufacturer ids in the model with the constants in the source: manufacturers.py <repo>."""
import os
import re
import sys

repo = sys.argv[1] if len(sys.argv) > 1 else '/repo'
here = os.path.dirname(os.path.abspath(__file__))
src = open(os.path.join(repo, 'inc/midi/manufacturer.h')).read()
src = re.sub(r'//[^\n]*', '', src)
code = [(n, int(v, 16)) for n, v in re.findall(r'\b(\w+)\s*=\s*(0x[0-9A-Fa-f]+)', src)]
model = open(os.path.join(here, '../../lean/Verif/Model/Manufacturers.lean')).read()
table = [(n, int(v, 16)) for n, v in re.findall(r'\("(\w+)", (0x[0-9A-Fa-f]+)\)', model)]
print(len(code), 'constants,', len(table), 'entries:', 'equal' if code == table else 'DIFFERENT')
for x in [x for x in code if x not in table] + [x for x in table if x not in code]:
    print(' ', x)
sys.exit(code != table)
