#!/usr/bin/env python3
"""Generate lean/Verif/Model/TagData.lean from the `implement!` tables of the source."""
import re, sys

REPO = sys.argv[1] if len(sys.argv) > 1 else '/repo'
OUT = sys.argv[2] if len(sys.argv) > 2 else '/verif/lean/Verif/Model/TagData.lean'


def rows(name, with_codes):
    path = f'{REPO}/src/layout/{name}.rs'
    text = open(path, encoding='utf-8').read()
    start = text.index('\nimplement! {\n') + 1
    end = text.index('\n}\n', start) + 2
    first = text[:start].count('\n') + 1
    last = text[:end].count('\n') + 1
    body = text[start + len('implement! {\n'):end - 1]
    body = re.sub(r'\\\n\s*', '', body)  # the line continuations of string literals
    pattern = re.compile(
        r'\s*(#\[cfg\(feature = "default-language"\)\]\s*)?'
        r'b"(.{4})"\s*=>\s*"([^"\\]*)"\s*=>\s*(\w+)' + (r'\s*=>\s*"([^"\\]*)"' if with_codes else '') + r',')
    result, at = [], 0
    while body[at:].strip():
        m = pattern.match(body, at)
        assert m, body[at:at + 80]
        result.append((m.group(2), m.group(3), m.group(4), m.group(5) if with_codes else None, bool(m.group(1))))
        at = m.end()
    return result, first, last


def tag(t):
    return '0x' + ''.join('%02X' % ord(c) for c in t)


def chars(s):
    return '[' + ', '.join("'%s'" % c for c in s) + ']'


out = ['import Verif.Prim',
       '/-! # The tables of features, scripts and languages',
       '',
       'Generated by `tools/tags.py` from the `implement!` invocations of the source, row by row in order. -/',
       '',
       'namespace OpenType',
       '']
for name, lean, with_codes in (('feature', 'feature', False), ('script', 'script', False), ('language', 'language', True)):
    table, first, last = rows(name, with_codes)
    assert len({r[2] for r in table}) == len(table), 'variants are distinct, or else Rust would refuse them'
    kind = 'LanguageRow' if with_codes else 'TagRow'
    out.append(f'/-- `src/layout/{name}.rs:{first}-{last}`. -/')
    out.append(f'def {lean}.rows : List {kind} := [')
    lines = []
    for t, n, v, c, g in table:
        line = f'  ⟨{tag(t)}, "{n}", "{v}"'
        if with_codes:
            line += f', {chars(c)}, {"true" if g else "false"}'
        lines.append(line + '⟩')
    out.append(',\n'.join(lines) + ']')
    out.append('')
    print(name, len(table), sum(r[4] for r in table), sum(r[3] == '' for r in table))
    if with_codes:
        for t, n, v, c, g in table:
            cs = [x for x in c.split(', ') if x]
            if not all(re.fullmatch('[a-z]{3}', x) for x in cs) or len(set(cs)) != len(cs):
                print('odd codes', t, n, cs)
out.insert(7, '''/-- A row `$tag => $name => $variant` of the invocations in `src/layout/feature.rs` and `src/layout/script.rs`. -/
structure TagRow where
  tag : Tag
  name : String
  variant : String

/-- A row `$tag => $name => $variant => $codes` of the invocation in `src/layout/language.rs`. The codes are the
characters of the literal. `gated` tells whether the row has `#[cfg(feature = "default-language")]`. -/
structure LanguageRow where
  tag : Tag
  name : String
  variant : String
  codes : List Char
  gated : Bool
''')
out.append('end OpenType')
open(OUT, 'w', encoding='utf-8').write('\n'.join(out) + '\n')
