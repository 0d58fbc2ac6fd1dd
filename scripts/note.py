#!/usr/bin/env python3
"""note.py Cnn text: set the note of a property."""
import json, sys, os
p = os.path.join(os.path.dirname(os.path.abspath(__file__)), 'notes.json')
d = json.load(open(p))
d[sys.argv[1]] = sys.argv[2]
open(p, 'w').write('{\n' + ',\n'.join(json.dumps(k) + ': ' + json.dumps(d[k]) for k in sorted(d)) + '\n}\n')
