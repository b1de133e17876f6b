#!/usr/bin/env python3
"""Writes lean/Verif/TestsReadme.lean: the sample outputs printed in /repo/README.md, and the page
seen in /repo/docs/images/edtf-parse-wasm.png, as examples of the tools' models."""
import re

README = '/repo/README.md'
lines = open(README).read().split('\n')


def block(start):
    """The text after the line that begins with `start`, up to the closing fence, and its lines."""
    at = next(i for i, l in enumerate(lines) if l.startswith(start))
    end = next(i for i in range(at, len(lines)) if lines[i] == '```')
    body = lines[at + 1:end]
    while body and not body[0]:
        body = body[1:]
    return '\n'.join(body), at + 1, end


def lit(s):
    return 'c! "' + s.replace('\\', '\\\\').replace('"', '\\"').replace('\n', '\\n') + '"'


def chunks(s):
    """The literal, one line of the text per line of the file."""
    parts = s.split('\n')
    return ' ++\n    '.join(lit(p + ('\n' if i + 1 < len(parts) else '')) for i, p in enumerate(parts))


out = ['''/-
The sample outputs printed in the repository's README.md, and the one page shown in
docs/images/edtf-parse-wasm.png, on the model.  They come from runs of the real program, so they
check the model from outside.  Generated by tools/genreadme.py.  These are tests on literals;
no property rests on them.
-/
import Verif.Page
import Verif.Cmd
namespace EDTF.Tests

/-- What `| jq` prints: the same layout as `JSON.stringify` with two spaces. -/
def jq (s : Str) : Option Str := (readJson s).map (fun v => v.stringify [])
''']

body, a, b = block('> ./bin/matches 193X')
out.append(f'/-! README.md:{a}-{b} -/\n'
           f'example : cmdMatches [c! "193X", c! "2021-10-10T00:24:00Z"] =\n'
           f'    ⟨{chunks(body)} ++ c! "\\n", 0⟩ := by decide +kernel\n')

for start, call in [
        ("$> ./bin/parse 2004-06-XX", 'cmdParse [c! "2004-06-XX/2004-07-03", c! "{1667,1668,1670..1672}"]'),
        ('$> wasmtime ./wasm/parse-p1.wasm', 'cmdWasi [c! "2025-04-02"]'),
        ('$> wasmtime ./wasm/parse-p2.wasm', 'cmdWasi [c! "2025-04-02T12:30:23"]')]:
    body, a, b = block(start)
    out.append(f'/-! README.md:{a}-{b} -/\n'
               f'example : jq ({call}).stdout = some (\n    {chunks(body)}) := by decide +kernel\n')

# The picture, typed in from it.
side = '''    "lower": {
      "datetime": "2026-01-02T12:45:23Z",
      "timestamp": 1767357923,
      "ymd": null
    },
    "upper": {
      "datetime": "2026-01-02T12:45:23Z",
      "timestamp": 1767357923,
      "ymd": null
    }
'''
page = ('{\n  "start": {\n    "edtf": "",\n' + side + '  },\n  "end": {\n    "edtf": "",\n' + side +
        '  },\n  "edtf": "2026-01-02T12:45:23",\n  "level": 0,\n  "feature": "Date and Time"\n}')
out.append('/-! docs/images/edtf-parse-wasm.png -/\n'
           f'example : showPage (c! "2026-01-02T12:45:23") = .pre (\n    {chunks(page)}) := by decide +kernel\n')
out.append('end EDTF.Tests\n')
open('/verif/lean/Verif/TestsReadme.lean', 'w').write('\n'.join(out))
