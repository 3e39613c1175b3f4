#!/usr/bin/env python3
"""Translate every fmt::println to an output file in the generators into a Lean text template.

usage: templates.py /repo/src/creation > lean/Verif/Gen/Templates.lean
One definition per call, named after file and line; the arguments are the fmt arguments in order."""
import re, sys
root = sys.argv[1]
FILES = [("process_items.cpp", "base"), ("xml/process_items_xml.cpp", "xml"),
         ("xml/process_items_xml_attrib.cpp", "attrib"), ("ini/process_items_ini.cpp", "ini")]

def unescape(s):
    out, i = [], 0
    while i < len(s):
        if s[i] == '\\':
            out.append({'n': '\n', 't': '\t', '"': '"', '\\': '\\', "'": "'"}[s[i + 1]])
            i += 2
        else:
            out.append(s[i]); i += 1
    return ''.join(out)

def fmt_parts(s):
    parts, cur, auto, i = [], '', 0, 0
    while i < len(s):
        if s.startswith('{{', i): cur += '{'; i += 2
        elif s.startswith('}}', i): cur += '}'; i += 2
        elif s[i] == '{':
            j = s.index('}', i); k = s[i + 1:j]
            if k == '': k = auto; auto += 1
            parts.append(cur); parts.append(int(k)); cur = ''; i = j + 1
        else:
            assert s[i] != '}', s
            cur += s[i]; i += 1
    parts.append(cur)
    return parts

def lean_lit(s):
    return 'c!"' + s.replace('\\', '\\\\').replace('"', '\\"').replace('\n', '\\n').replace('\t', '\\t') + '"'

print("import Verif.Text")
print("/-\nGenerated by tools/templates.py from the fmt::println calls of the generators in /repo/src/creation.")
print("Every call that writes to an output file is one definition: the text written (with the newline that")
print("println adds) as a function of the fmt arguments.\n-/")
print("namespace Stfx.Gen.T\n")
for fn, short in FILES:
    src = open(root + '/' + fn).read()
    # blank out comments outside strings, keeping positions
    tok = re.compile(r'"(?:\\.|[^"\\])*"|//[^\n]*|/\*.*?\*/', re.S)
    src = tok.sub(lambda m: m.group(0) if m.group(0)[0] == '"' else re.sub(r'[^\n]', ' ', m.group(0)), src)
    for m in re.finditer(r'fmt::println\(\s*(f_cpp|f_h|out_file_cpp|out_file_h)\s*,\s*', src):
        line = src.count('\n', 0, m.start()) + 1
        i = m.end(); text = ''
        while True:
            sm = re.compile(r'\s*"((?:\\.|[^"\\])*)"').match(src, i)
            if not sm: break
            text += unescape(sm.group(1)); i = sm.end()
        depth, j, instr = 1, i, False
        while depth:
            c = src[j]
            if c == '(' : depth += 1
            elif c == ')': depth -= 1
            j += 1
        args = [a.strip() for a in src[i:j - 1].split(',') if a.strip()]
        end = src.count('\n', 0, j) + 1
        parts = fmt_parts(text + '\n')
        used = [p for p in parts if isinstance(p, int)]
        n = max(used) + 1 if used else 0
        assert n == len(args), (fn, line, n, args)
        pieces = []
        for p in parts:
            if isinstance(p, int): pieces.append('a%d' % p)
            else:
                while p:
                    pieces.append(lean_lit(p[:50])); p = p[50:]
        # one piece per line when long
        body = ' ++\n  '.join(pieces)
        binder = ' (' + ' '.join('a%d' % k for k in range(n)) + ' : Str)' if n else ''
        print("/-- %s:%d%s, to %s%s. -/" % (fn, line, '' if end == line else '-%d' % end, m.group(1),
              ', arguments ' + ', '.join('`%s`' % a for a in args) if args else ''))
        print("def %s%d%s : Str :=\n  %s\n" % (short, line, binder, body))
print("end Stfx.Gen.T")
